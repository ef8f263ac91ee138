import Verif.Model.CoreLib
/-
GENERATED by scripts/gen_examples.py from /repo/examples; do not edit.
Example programs of the repository: their text, line by line; the forms; and the functions they define.
-/
set_option autoImplicit false
namespace L1

/-- The lines of examples/sentences.l1. -/
def sentencesLines : List String := [
  "#!/usr/bin/env l1",
  ";; sentences.l1",
  "",
  ";; Adapted from Norvig, Paradigms of Artificial Intelligence",
  ";; Programming, pp. 36-43 (MIT License):",
  "(defn one-of (l) (list (randchoice l)))",
  "",
  ";; Simple, functional version:",
  "(comment",
  " (defn Noun () (one-of '(man ball woman table thing)))",
  " (defn Verb () (one-of '(hit took saw liked)))",
  " (defn Article () (one-of '(the a)))",
  " (defn noun-phrase () (concat (Article) (Noun)))",
  " (defn verb-phrase () (concat (Verb) (noun-phrase)))",
  " (defn sentence () (concat (noun-phrase) (verb-phrase)))",
  "",
  " (defn proper-sentence ()",
  "   (let ((s (sentence)))",
  "     (let ((first (capitalize (car s)))",
  "           (last (period (car (reverse s)))))",
  "       (cons first",
  "             (reverse (cons last",
  "                            (cdr (reverse (cdr s)))))))))",
  " (dotimes 10",
  "   (printl (proper-sentence)))",
  " ;;=>",
  " ;; A ball saw a ball.",
  " ;; The ball took a table.",
  " ;; The woman took the man.",
  " ;; A table hit the table.",
  " ;; A woman liked a man.",
  " ;; The woman saw a woman.",
  " ;; A table took a woman.",
  " ;; The ball saw the woman.",
  " ;; The man hit the man.",
  " ;; A man liked the table.",
  " )",
  "",
  ";; Rule-based version:",
  "(def simple-grammar",
  "    '((sentence -> (noun-phrase verb-phrase))",
  "      (noun-phrase -> (Article Noun))",
  "      (verb-phrase -> (Verb noun-phrase))",
  "      (Article -> the a)",
  "      (Noun -> man ball woman table)",
  "      (Verb -> hit took saw liked)))",
  "",
  "(def bigger-grammar",
  "    '((sentence -> (noun-phrase verb-phrase))",
  "      (noun-phrase -> (Article Adj* Noun PP*) (Name) (Pronoun))",
  "      (verb-phrase -> (Verb noun-phrase PP*))",
  "      (PP* -> () (PP PP*))",
  "      (Adj* -> () (Adj Adj*))",
  "      (PP -> (Prep noun-phrase))",
  "      (Prep -> to in by with on)",
  "      (Adj -> big little blue green adiabatic)",
  "      (Article -> the a)",
  "      (Name -> Pat Kim Lee Terry Robin)",
  "      (Noun -> man ball woman table)",
  "      (Verb -> hit took saw liked)",
  "      (Pronoun -> he she it these those that)))",
  "",
  "(defn assoc (x pairs)",
  "  (cond ((not pairs) ())",
  "        ((= x (caar pairs))",
  "         (car pairs))",
  "        (t (assoc x (cdr pairs)))))",
  "",
  "(defn rule-lhs (rule) (first rule))",
  "(defn rule-rhs (rule) (cddr rule))",
  "",
  "(defn rewrites (grammar category)",
  "  (rule-rhs (assoc category grammar)))",
  "",
  "(defn generate (grammar phrase)",
  "  (if (list? phrase)",
  "      (mapcat (partial generate grammar) phrase)",
  "      (let ((choices (rewrites grammar phrase)))",
  "        (if choices",
  "            (generate grammar (randchoice choices))",
  "            (list phrase)))))",
  "",
  "(dotimes 10",
  "  (printl",
  "   (tosentence",
  "    (generate (randchoice (list simple-grammar",
  "                                bigger-grammar))",
  "              'sentence))))",
  ""]

/-- The text of examples/sentences.l1. -/
def sentencesText : List Char := joinNl (sentencesLines.map String.toList)

/-- The forms of examples/sentences.l1. -/
def sentencesForms : List Val := [
  vlist [.atom "defn", .atom "one-of", vlist [.atom "l"], vlist [.atom "list", vlist [.atom "randchoice", .atom "l"]]],
  vlist [.atom "comment", vlist [.atom "defn", .atom "Noun", .nil, vlist [.atom "one-of", vlist [.atom "quote", vlist [.atom "man", .atom "ball", .atom "woman", .atom "table", .atom "thing"]]]], vlist [.atom "defn", .atom "Verb", .nil, vlist [.atom "one-of", vlist [.atom "quote", vlist [.atom "hit", .atom "took", .atom "saw", .atom "liked"]]]], vlist [.atom "defn", .atom "Article", .nil, vlist [.atom "one-of", vlist [.atom "quote", vlist [.atom "the", .atom "a"]]]], vlist [.atom "defn", .atom "noun-phrase", .nil, vlist [.atom "concat", vlist [.atom "Article"], vlist [.atom "Noun"]]], vlist [.atom "defn", .atom "verb-phrase", .nil, vlist [.atom "concat", vlist [.atom "Verb"], vlist [.atom "noun-phrase"]]], vlist [.atom "defn", .atom "sentence", .nil, vlist [.atom "concat", vlist [.atom "noun-phrase"], vlist [.atom "verb-phrase"]]], vlist [.atom "defn", .atom "proper-sentence", .nil, vlist [.atom "let", vlist [vlist [.atom "s", vlist [.atom "sentence"]]], vlist [.atom "let", vlist [vlist [.atom "first", vlist [.atom "capitalize", vlist [.atom "car", .atom "s"]]], vlist [.atom "last", vlist [.atom "period", vlist [.atom "car", vlist [.atom "reverse", .atom "s"]]]]], vlist [.atom "cons", .atom "first", vlist [.atom "reverse", vlist [.atom "cons", .atom "last", vlist [.atom "cdr", vlist [.atom "reverse", vlist [.atom "cdr", .atom "s"]]]]]]]]], vlist [.atom "dotimes", .num 10, vlist [.atom "printl", vlist [.atom "proper-sentence"]]]],
  vlist [.atom "def", .atom "simple-grammar", vlist [.atom "quote", vlist [vlist [.atom "sentence", .atom "->", vlist [.atom "noun-phrase", .atom "verb-phrase"]], vlist [.atom "noun-phrase", .atom "->", vlist [.atom "Article", .atom "Noun"]], vlist [.atom "verb-phrase", .atom "->", vlist [.atom "Verb", .atom "noun-phrase"]], vlist [.atom "Article", .atom "->", .atom "the", .atom "a"], vlist [.atom "Noun", .atom "->", .atom "man", .atom "ball", .atom "woman", .atom "table"], vlist [.atom "Verb", .atom "->", .atom "hit", .atom "took", .atom "saw", .atom "liked"]]]],
  vlist [.atom "def", .atom "bigger-grammar", vlist [.atom "quote", vlist [vlist [.atom "sentence", .atom "->", vlist [.atom "noun-phrase", .atom "verb-phrase"]], vlist [.atom "noun-phrase", .atom "->", vlist [.atom "Article", .atom "Adj*", .atom "Noun", .atom "PP*"], vlist [.atom "Name"], vlist [.atom "Pronoun"]], vlist [.atom "verb-phrase", .atom "->", vlist [.atom "Verb", .atom "noun-phrase", .atom "PP*"]], vlist [.atom "PP*", .atom "->", .nil, vlist [.atom "PP", .atom "PP*"]], vlist [.atom "Adj*", .atom "->", .nil, vlist [.atom "Adj", .atom "Adj*"]], vlist [.atom "PP", .atom "->", vlist [.atom "Prep", .atom "noun-phrase"]], vlist [.atom "Prep", .atom "->", .atom "to", .atom "in", .atom "by", .atom "with", .atom "on"], vlist [.atom "Adj", .atom "->", .atom "big", .atom "little", .atom "blue", .atom "green", .atom "adiabatic"], vlist [.atom "Article", .atom "->", .atom "the", .atom "a"], vlist [.atom "Name", .atom "->", .atom "Pat", .atom "Kim", .atom "Lee", .atom "Terry", .atom "Robin"], vlist [.atom "Noun", .atom "->", .atom "man", .atom "ball", .atom "woman", .atom "table"], vlist [.atom "Verb", .atom "->", .atom "hit", .atom "took", .atom "saw", .atom "liked"], vlist [.atom "Pronoun", .atom "->", .atom "he", .atom "she", .atom "it", .atom "these", .atom "those", .atom "that"]]]],
  vlist [.atom "defn", .atom "assoc", vlist [.atom "x", .atom "pairs"], vlist [.atom "cond", vlist [vlist [.atom "not", .atom "pairs"], .nil], vlist [vlist [.atom "=", .atom "x", vlist [.atom "caar", .atom "pairs"]], vlist [.atom "car", .atom "pairs"]], vlist [.atom "t", vlist [.atom "assoc", .atom "x", vlist [.atom "cdr", .atom "pairs"]]]]],
  vlist [.atom "defn", .atom "rule-lhs", vlist [.atom "rule"], vlist [.atom "first", .atom "rule"]],
  vlist [.atom "defn", .atom "rule-rhs", vlist [.atom "rule"], vlist [.atom "cddr", .atom "rule"]],
  vlist [.atom "defn", .atom "rewrites", vlist [.atom "grammar", .atom "category"], vlist [.atom "rule-rhs", vlist [.atom "assoc", .atom "category", .atom "grammar"]]],
  vlist [.atom "defn", .atom "generate", vlist [.atom "grammar", .atom "phrase"], vlist [.atom "if", vlist [.atom "list?", .atom "phrase"], vlist [.atom "mapcat", vlist [.atom "partial", .atom "generate", .atom "grammar"], .atom "phrase"], vlist [.atom "let", vlist [vlist [.atom "choices", vlist [.atom "rewrites", .atom "grammar", .atom "phrase"]]], vlist [.atom "if", .atom "choices", vlist [.atom "generate", .atom "grammar", vlist [.atom "randchoice", .atom "choices"]], vlist [.atom "list", .atom "phrase"]]]]],
  vlist [.atom "dotimes", .num 10, vlist [.atom "printl", vlist [.atom "tosentence", vlist [.atom "generate", vlist [.atom "randchoice", vlist [.atom "list", .atom "simple-grammar", .atom "bigger-grammar"]], vlist [.atom "quote", .atom "sentence"]]]]]]

/-- `one-of`, examples/sentences.l1:6, as a function value. -/
def s_one_of : Val := .lam ["l"] "" (vlist [vlist [.atom "list", vlist [.atom "randchoice", .atom "l"]]]) .nil false 0

/-- `assoc`, examples/sentences.l1:63, as a function value. -/
def s_assoc : Val := .lam ["x", "pairs"] "" (vlist [vlist [.atom "cond", vlist [vlist [.atom "not", .atom "pairs"], .nil], vlist [vlist [.atom "=", .atom "x", vlist [.atom "caar", .atom "pairs"]], vlist [.atom "car", .atom "pairs"]], vlist [.atom "t", vlist [.atom "assoc", .atom "x", vlist [.atom "cdr", .atom "pairs"]]]]]) .nil false 0

/-- `rule-lhs`, examples/sentences.l1:69, as a function value. -/
def s_rule_lhs : Val := .lam ["rule"] "" (vlist [vlist [.atom "first", .atom "rule"]]) .nil false 0

/-- `rule-rhs`, examples/sentences.l1:70, as a function value. -/
def s_rule_rhs : Val := .lam ["rule"] "" (vlist [vlist [.atom "cddr", .atom "rule"]]) .nil false 0

/-- `rewrites`, examples/sentences.l1:72, as a function value. -/
def s_rewrites : Val := .lam ["grammar", "category"] "" (vlist [vlist [.atom "rule-rhs", vlist [.atom "assoc", .atom "category", .atom "grammar"]]]) .nil false 0

/-- `generate`, examples/sentences.l1:75, as a function value. -/
def s_generate : Val := .lam ["grammar", "phrase"] "" (vlist [vlist [.atom "if", vlist [.atom "list?", .atom "phrase"], vlist [.atom "mapcat", vlist [.atom "partial", .atom "generate", .atom "grammar"], .atom "phrase"], vlist [.atom "let", vlist [vlist [.atom "choices", vlist [.atom "rewrites", .atom "grammar", .atom "phrase"]]], vlist [.atom "if", .atom "choices", vlist [.atom "generate", .atom "grammar", vlist [.atom "randchoice", .atom "choices"]], vlist [.atom "list", .atom "phrase"]]]]]) .nil false 0

/-- The lines of examples/meta.l1. -/
def metaLines : List String := [
  "(defn member (x l)",
  "  (some (partial = x) l))",
  "",
  "(defn assoc (x pairs)",
  "  (cond ((not pairs) ())",
  "        ((= x (caar pairs))",
  "         (car pairs))",
  "        (t (assoc x (cdr pairs)))))",
  "",
  "(defn increment-key (k pairs)",
  "  (let ((pair (assoc k pairs)))",
  "    (if-not pair",
  "      (cons (cons k 0) pairs)",
  "      (cons (cons k (inc (cdr pair))) pairs))))",
  "",
  "(defn clear-dup-keys (pairs)",
  "  (let ((seen ())",
  "        (ret ()))",
  "    (foreach p pairs",
  "      (when-not (member (car p) seen)",
  "        (set! seen (cons (car p) seen))",
  "        (set! ret (cons p ret))))",
  "    ret))",
  "",
  "(defn frequencies (l)",
  "  (let ((state ()))",
  "    (foreach x l",
  "      (set! state (increment-key x state)))",
  "    (clear-dup-keys state)))",
  "",
  "(let ((fs (forms)))",
  "  (printl `(There are ~(len fs) forms ~COLON))",
  "  (foreach pair (reverse",
  "                 (sort-by cdr",
  "                          (frequencies",
  "                           (map second fs))))",
  "    (printl `(~TAB type ~(car pair) ~COLON ~(cdr pair))))",
  "  ())",
  ""]

/-- The text of examples/meta.l1. -/
def metaText : List Char := joinNl (metaLines.map String.toList)

/-- The forms of examples/meta.l1. -/
def metaForms : List Val := [
  vlist [.atom "defn", .atom "member", vlist [.atom "x", .atom "l"], vlist [.atom "some", vlist [.atom "partial", .atom "=", .atom "x"], .atom "l"]],
  vlist [.atom "defn", .atom "assoc", vlist [.atom "x", .atom "pairs"], vlist [.atom "cond", vlist [vlist [.atom "not", .atom "pairs"], .nil], vlist [vlist [.atom "=", .atom "x", vlist [.atom "caar", .atom "pairs"]], vlist [.atom "car", .atom "pairs"]], vlist [.atom "t", vlist [.atom "assoc", .atom "x", vlist [.atom "cdr", .atom "pairs"]]]]],
  vlist [.atom "defn", .atom "increment-key", vlist [.atom "k", .atom "pairs"], vlist [.atom "let", vlist [vlist [.atom "pair", vlist [.atom "assoc", .atom "k", .atom "pairs"]]], vlist [.atom "if-not", .atom "pair", vlist [.atom "cons", vlist [.atom "cons", .atom "k", .num 0], .atom "pairs"], vlist [.atom "cons", vlist [.atom "cons", .atom "k", vlist [.atom "inc", vlist [.atom "cdr", .atom "pair"]]], .atom "pairs"]]]],
  vlist [.atom "defn", .atom "clear-dup-keys", vlist [.atom "pairs"], vlist [.atom "let", vlist [vlist [.atom "seen", .nil], vlist [.atom "ret", .nil]], vlist [.atom "foreach", .atom "p", .atom "pairs", vlist [.atom "when-not", vlist [.atom "member", vlist [.atom "car", .atom "p"], .atom "seen"], vlist [.atom "set!", .atom "seen", vlist [.atom "cons", vlist [.atom "car", .atom "p"], .atom "seen"]], vlist [.atom "set!", .atom "ret", vlist [.atom "cons", .atom "p", .atom "ret"]]]], .atom "ret"]],
  vlist [.atom "defn", .atom "frequencies", vlist [.atom "l"], vlist [.atom "let", vlist [vlist [.atom "state", .nil]], vlist [.atom "foreach", .atom "x", .atom "l", vlist [.atom "set!", .atom "state", vlist [.atom "increment-key", .atom "x", .atom "state"]]], vlist [.atom "clear-dup-keys", .atom "state"]]],
  vlist [.atom "let", vlist [vlist [.atom "fs", vlist [.atom "forms"]]], vlist [.atom "printl", vlist [.atom "syntax-quote", vlist [.atom "There", .atom "are", vlist [.atom "unquote", vlist [.atom "len", .atom "fs"]], .atom "forms", vlist [.atom "unquote", .atom "COLON"]]]], vlist [.atom "foreach", .atom "pair", vlist [.atom "reverse", vlist [.atom "sort-by", .atom "cdr", vlist [.atom "frequencies", vlist [.atom "map", .atom "second", .atom "fs"]]]], vlist [.atom "printl", vlist [.atom "syntax-quote", vlist [vlist [.atom "unquote", .atom "TAB"], .atom "type", vlist [.atom "unquote", vlist [.atom "car", .atom "pair"]], vlist [.atom "unquote", .atom "COLON"], vlist [.atom "unquote", vlist [.atom "cdr", .atom "pair"]]]]]], .nil]]

/-- `member`, examples/meta.l1:1, as a function value. -/
def m_member : Val := .lam ["x", "l"] "" (vlist [vlist [.atom "some", vlist [.atom "partial", .atom "=", .atom "x"], .atom "l"]]) .nil false 0

/-- `assoc`, examples/meta.l1:4, as a function value. -/
def m_assoc : Val := .lam ["x", "pairs"] "" (vlist [vlist [.atom "cond", vlist [vlist [.atom "not", .atom "pairs"], .nil], vlist [vlist [.atom "=", .atom "x", vlist [.atom "caar", .atom "pairs"]], vlist [.atom "car", .atom "pairs"]], vlist [.atom "t", vlist [.atom "assoc", .atom "x", vlist [.atom "cdr", .atom "pairs"]]]]]) .nil false 0

/-- `increment-key`, examples/meta.l1:10, as a function value. -/
def m_increment_key : Val := .lam ["k", "pairs"] "" (vlist [vlist [.atom "let", vlist [vlist [.atom "pair", vlist [.atom "assoc", .atom "k", .atom "pairs"]]], vlist [.atom "if-not", .atom "pair", vlist [.atom "cons", vlist [.atom "cons", .atom "k", .num 0], .atom "pairs"], vlist [.atom "cons", vlist [.atom "cons", .atom "k", vlist [.atom "inc", vlist [.atom "cdr", .atom "pair"]]], .atom "pairs"]]]]) .nil false 0

/-- `clear-dup-keys`, examples/meta.l1:16, as a function value. -/
def m_clear_dup_keys : Val := .lam ["pairs"] "" (vlist [vlist [.atom "let", vlist [vlist [.atom "seen", .nil], vlist [.atom "ret", .nil]], vlist [.atom "foreach", .atom "p", .atom "pairs", vlist [.atom "when-not", vlist [.atom "member", vlist [.atom "car", .atom "p"], .atom "seen"], vlist [.atom "set!", .atom "seen", vlist [.atom "cons", vlist [.atom "car", .atom "p"], .atom "seen"]], vlist [.atom "set!", .atom "ret", vlist [.atom "cons", .atom "p", .atom "ret"]]]], .atom "ret"]]) .nil false 0

/-- `frequencies`, examples/meta.l1:25, as a function value. -/
def m_frequencies : Val := .lam ["l"] "" (vlist [vlist [.atom "let", vlist [vlist [.atom "state", .nil]], vlist [.atom "foreach", .atom "x", .atom "l", vlist [.atom "set!", .atom "state", vlist [.atom "increment-key", .atom "x", .atom "state"]]], vlist [.atom "clear-dup-keys", .atom "state"]]]) .nil false 0

/-- The lines of examples/eliza.l1. -/
def elizaLines : List String := [
  "#!/usr/bin/env l1",
  "",
  ";; Adapted from P. Norvig, PAIP Chapter 5, which itself was adapted",
  ";; from Eliza, by Joseph Weizenbaum",
  ";; (https://en.wikipedia.org/wiki/ELIZA)",
  "",
  "(defn assoc (x pairs)",
  "  (cond ((not pairs) ())",
  "        ((= x (caar pairs))",
  "         (car pairs))",
  "        (t (assoc x (cdr pairs)))))",
  "",
  "(defn mklist (x)",
  "  (if (list? x)",
  "    x",
  "    (list x)))",
  "",
  "(defn variable? (a)",
  "  (and (atom? a)",
  "       (= (car (split a))",
  "          '?)))",
  "",
  "(defn cadr (l) (car (cdr l)))",
  "",
  "(defn assoc-sub (alist item)",
  "  (let ((match (assoc item alist)))",
  "    (if match",
  "      (cdr match)",
  "      item)))",
  "",
  "(defn tree-sub (f x)",
  "  (cond ((not x) ())",
  "        ((not (list? x)) (f x))",
  "        (t (cons (tree-sub f (car x))",
  "                 (tree-sub f (cdr x))))))",
  "",
  "(defn sublis (pairs l)",
  "  (tree-sub (lambda (x) (assoc-sub pairs x))",
  "            l))",
  "",
  "(def fail ())",
  "(def no-bindings '((t . t)))",
  "",
  "(defn get-binding (var bindings)",
  "  (doc (Find a (variable . value) pair in a binding list))",
  "  (assoc var bindings))",
  "",
  "(defn binding-val (binding)",
  "  (doc (Get the value part of a single binding))",
  "  (cdr binding))",
  "",
  "(defn lookup (var bindings)",
  "  (doc (Get the value part (for var) from a binding list))",
  "  (binding-val (get-binding var bindings)))",
  "",
  "(defn extend-bindings (var val bindings)",
  "  (doc (Add a (var . value) pair to a binding list))",
  "  (cons (cons var val)",
  "        ;; Once we add a \"real\" binding,",
  "        ;; we can get rid of the dummy no-bindings:",
  "        (cond ((= bindings no-bindings) ())",
  "              (t bindings))))",
  "",
  "(defn match-variable (var input bindings)",
  "  (doc (Does VAR match input? Uses (or updates) and returns bindings))",
  "  (let ((binding (get-binding var bindings)))",
  "    (cond ((not binding) (extend-bindings var input bindings))",
  "          ((= input (binding-val binding)) bindings)",
  "          (t fail))))",
  "",
  "(defn segment-pattern? (pattern)",
  "  (doc (Is this a segment matching pattern, e.g. ((?* var) . pat)))",
  "  (and (list? pattern)",
  "       (= (car pattern)",
  "          '?*)))",
  "",
  "(defn segment-pattern? (pattern)",
  "  (doc (Is this a segment matching pattern, e.g. ((?* var) . pat)))",
  "  (and (list? pattern)",
  "       (list? (car pattern))",
  "       (= (car (car pattern))",
  "          '?*)))",
  "",
  "(defn segment-match (pattern input bindings start)",
  "  (doc (Match the segment pattern ((?* var) . pat) against input))",
  "  (let ((var (cadr (car pattern)))",
  "        (pat (cdr pattern)))",
  "    (if (not pat)",
  "      (match-variable var input bindings)",
  "      ;; We assume that pat starts with a constant",
  "      ;; In other words, a pattern can't have 2 consecutive vars",
  "      (let ((pos (position (car pat) input start)))",
  "        (cond",
  "         ((not pos) fail)",
  "         (t",
  "          (let ((b2 (pat-match pat",
  "                               (subseq input pos ())",
  "                               (match-variable var",
  "                                               (subseq input 0 pos)",
  "                                               bindings))))",
  "            ;; If this match failed, try another longer one",
  "            (if (= b2 fail)",
  "              (segment-match pattern input bindings (+ pos 1))",
  "              b2))))))))",
  "",
  "(defn pat-match (pattern input bindings)",
  "  (doc (Match pattern against input in the context of the bindings))",
  "  (cond ((= bindings fail) fail)",
  "        ((= pattern input) bindings)",
  "        ((segment-pattern? pattern)",
  "         (segment-match pattern input bindings 0))",
  "        ((and (list? pattern) (list? input))",
  "         (pat-match (cdr pattern)",
  "                    (cdr input)",
  "                    (pat-match (car pattern)",
  "                               (car input)",
  "                               bindings)))",
  "        (t fail)))",
  "",
  "(defn niladd (a b)",
  "  (cond ((not a) ())",
  "        ((not b) ())",
  "        (t (+ a b))))",
  "",
  "(defn position (a input start)",
  "  (cond ((not input) ())",
  "        ((< 0 start) (niladd start (position a (drop start input) 0)))",
  "        ((= a (car input)) 0)",
  "        (t (niladd 1 (position a (cdr input) 0)))))",
  "",
  "(defn subseq (l start end)",
  "  (if (not end)",
  "    (drop start l)",
  "    (take (- end start) (subseq l start ()))))",
  "",
  "(defn rule-pattern (rule) (car rule))",
  "(defn rule-responses (rule) (cdr rule))",
  "",
  "(def *eliza-rules*",
  "     '((((?* ?x) hello (?* ?y))",
  "        (How do you do. Please state your problem.))",
  "       (((?* ?x) I want (?* ?y))",
  "        (What would it mean if you got ?y)",
  "        (Why do you want ?y) (Suppose you got ?y soon))",
  "       (((?* ?x) if (?* ?y))",
  "        (Do you really think its likely that ?y) (Do you wish that ?y)",
  "        (What do you think about ?y) (Really-- if ?y))",
  "       (((?* ?x) no (?* ?y))",
  "        (Why not?) (You are being a bit negative)",
  "        (Are you saying NO just to be negative?))",
  "       (((?* ?x) I was (?* ?y))",
  "        (Were you really?) (Perhaps I already knew you were ?y)",
  "        (Why do you tell me you were ?y now?))",
  "       (((?* ?x) I feel (?* ?y))",
  "        (Do you often feel ?y ?))",
  "       (((?* ?x) I felt (?* ?y))",
  "        (What other feelings do you have?))",
  "       (((?* ?x))",
  "        (Interesting))))",
  "",
  "(defn switch-viewpoint (words)",
  "  (doc (Change I to you and vice versa, and so on))",
  "  (sublis '((I . you) (you . I) (me . you) (am . are))",
  "          words))",
  "",
  "(defn apply-rule (rule)",
  "  (let ((result (pat-match (rule-pattern rule)",
  "                           input",
  "                           no-bindings)))",
  "    (when (not (= result fail))",
  "      (sublis (switch-viewpoint result)",
  "              (random-elt (rule-responses rule))))))",
  "",
  "(defn use-eliza-rules (input)",
  "  (doc (Find some rule with which to transform the input))",
  "  (some (lambda (rule)",
  "          (let ((result (pat-match (rule-pattern rule) input no-bindings)))",
  "            (when (not (= result fail))",
  "              (sublis (switch-viewpoint result)",
  "                      (randchoice (rule-responses rule))))))",
  "        *eliza-rules*))",
  "",
  "(defn eliza ()",
  "  (doc (Respond to user input using pattern matching rules.))",
  "  (loop",
  "   (print 'eliza>)",
  "   (print SPACE)",
  "   (printl (flatten (use-eliza-rules (readlist))))))",
  "",
  ";; TESTS -----------------------------------------------",
  "(test '(variable)",
  "  (is (variable? (quote ?x)))",
  "  (is (not (variable? 'foo))))",
  "",
  "(test '(assoc)",
  "  (is (= '(i . you)",
  "         (assoc 'i",
  "                '((i . you)",
  "                  (you . i)",
  "                  (me . you)",
  "                  (am . are)))))",
  "  (is (= '(am . are)",
  "         (assoc 'am",
  "                '((i . you)",
  "                  (you . i)",
  "                  (me . you)",
  "                  (am . are))))))",
  "",
  "(test '(tree-sub and assoc-sub)",
  "  (is (= '(2 3 4 (5 6 (7) (8 9) 10 11 12))",
  "         (tree-sub inc",
  "                   '(1 2 3 (4 5 (6) (7 8) 9 10 11)))))",
  "",
  "  (is (= 'are (assoc-sub '((i . you)",
  "                           (you . i)",
  "                           (me . you)",
  "                           (am . are))",
  "                         'am))))",
  "",
  "(test '(sublis)",
  "  (is (= '(a b c) (sublis () '(a b c))))",
  "  (is (= '(what would it mean to you if you",
  "                got a tree (or something better than a tree) ?)",
  "         (sublis '((?X . tree))",
  "                 '(what would it mean to you",
  "                        if you got a ?X",
  "                        (or something better than a ?X) ?)))))",
  "",
  "(test '(segment-pattern?)",
  "  (is (segment-pattern? '((?* ?x) . a)))",
  "  (is (not (segment-pattern? '?a))))",
  "",
  "(test '(position)",
  "  (is (= 0 (position 0 (range 5) 0)))",
  "  (is (= 1 (position 1 (range 5) 0)))",
  "  (is (not (position 'foo (range 5) 0)))",
  "  (is (= 4 (position 4 (range 5) 0)))",
  "  (is (= 4 (position 4 (range 5) 4))))",
  "",
  "(test '(subseq)",
  "  (is (= 'lo_world",
  "         (fuse (subseq (split 'hello_world)",
  "                       3 ()))))",
  "  (is (= 'lo",
  "         (fuse (subseq (split 'hello_world)",
  "                       3 5)))))",
  "",
  "(test '(some)",
  "  (is (not (some odd? '(2 4 6))))",
  "  (is (= t (some odd? '(2 4 5 6))))",
  "  (is (some (lambda (x) (= x 4))",
  "            '(2 4 5 6))))",
  "",
  "(test '(pat-match)",
  "  (is (= '((?y there) (?x))",
  "         (pat-match '((?* ?x) hello (?* ?y))",
  "                    '(hello there)",
  "                    no-bindings)))",
  "  (is (= '((?y vacation))",
  "         (pat-match '(i need a (?* ?y))",
  "                    '(i need a vacation)",
  "                    no-bindings)))",
  "  (is (= fail",
  "         (pat-match '(i really need a (?* ?y))",
  "                    '(i need a vacation)",
  "                    no-bindings)))",
  "  (is (= no-bindings",
  "         (pat-match '(this is easy) '(this is easy) no-bindings)))",
  "",
  "  (is (= fail (pat-match '((?* ?p) need (?* ?x))",
  "                         '(Mr Hulot and I need a vacation)",
  "                         fail)))",
  "  (is (= '((?x a vacation) (?p Mr Hulot and I))",
  "         (pat-match '((?* ?p) need (?* ?x))",
  "                    '(Mr Hulot and I need a vacation)",
  "                    no-bindings)))",
  "",
  "  (is (= '((?x 1 2 a b))",
  "         (pat-match '((?* ?x) a b (?* ?x))",
  "                    '(1 2 a b a b 1 2 a b)",
  "                    no-bindings))))",
  "",
  "(test '(response)",
  "  (is (= '(Do you often feel sad ?)",
  "         (flatten (use-eliza-rules '(I feel sad))))))",
  "",
  "(eliza)",
  ""]

/-- The text of examples/eliza.l1. -/
def elizaText : List Char := joinNl (elizaLines.map String.toList)

/-- The forms of examples/eliza.l1. -/
def elizaForms : List Val := [
  vlist [.atom "defn", .atom "assoc", vlist [.atom "x", .atom "pairs"], vlist [.atom "cond", vlist [vlist [.atom "not", .atom "pairs"], .nil], vlist [vlist [.atom "=", .atom "x", vlist [.atom "caar", .atom "pairs"]], vlist [.atom "car", .atom "pairs"]], vlist [.atom "t", vlist [.atom "assoc", .atom "x", vlist [.atom "cdr", .atom "pairs"]]]]],
  vlist [.atom "defn", .atom "mklist", vlist [.atom "x"], vlist [.atom "if", vlist [.atom "list?", .atom "x"], .atom "x", vlist [.atom "list", .atom "x"]]],
  vlist [.atom "defn", .atom "variable?", vlist [.atom "a"], vlist [.atom "and", vlist [.atom "atom?", .atom "a"], vlist [.atom "=", vlist [.atom "car", vlist [.atom "split", .atom "a"]], vlist [.atom "quote", .atom "?"]]]],
  vlist [.atom "defn", .atom "cadr", vlist [.atom "l"], vlist [.atom "car", vlist [.atom "cdr", .atom "l"]]],
  vlist [.atom "defn", .atom "assoc-sub", vlist [.atom "alist", .atom "item"], vlist [.atom "let", vlist [vlist [.atom "match", vlist [.atom "assoc", .atom "item", .atom "alist"]]], vlist [.atom "if", .atom "match", vlist [.atom "cdr", .atom "match"], .atom "item"]]],
  vlist [.atom "defn", .atom "tree-sub", vlist [.atom "f", .atom "x"], vlist [.atom "cond", vlist [vlist [.atom "not", .atom "x"], .nil], vlist [vlist [.atom "not", vlist [.atom "list?", .atom "x"]], vlist [.atom "f", .atom "x"]], vlist [.atom "t", vlist [.atom "cons", vlist [.atom "tree-sub", .atom "f", vlist [.atom "car", .atom "x"]], vlist [.atom "tree-sub", .atom "f", vlist [.atom "cdr", .atom "x"]]]]]],
  vlist [.atom "defn", .atom "sublis", vlist [.atom "pairs", .atom "l"], vlist [.atom "tree-sub", vlist [.atom "lambda", vlist [.atom "x"], vlist [.atom "assoc-sub", .atom "pairs", .atom "x"]], .atom "l"]],
  vlist [.atom "def", .atom "fail", .nil],
  vlist [.atom "def", .atom "no-bindings", vlist [.atom "quote", vlist [mkList [.atom "t"] (.atom "t")]]],
  vlist [.atom "defn", .atom "get-binding", vlist [.atom "var", .atom "bindings"], vlist [.atom "doc", vlist [.atom "Find", .atom "a", mkList [.atom "variable"] (.atom "value"), .atom "pair", .atom "in", .atom "a", .atom "binding", .atom "list"]], vlist [.atom "assoc", .atom "var", .atom "bindings"]],
  vlist [.atom "defn", .atom "binding-val", vlist [.atom "binding"], vlist [.atom "doc", vlist [.atom "Get", .atom "the", .atom "value", .atom "part", .atom "of", .atom "a", .atom "single", .atom "binding"]], vlist [.atom "cdr", .atom "binding"]],
  vlist [.atom "defn", .atom "lookup", vlist [.atom "var", .atom "bindings"], vlist [.atom "doc", vlist [.atom "Get", .atom "the", .atom "value", .atom "part", vlist [.atom "for", .atom "var"], .atom "from", .atom "a", .atom "binding", .atom "list"]], vlist [.atom "binding-val", vlist [.atom "get-binding", .atom "var", .atom "bindings"]]],
  vlist [.atom "defn", .atom "extend-bindings", vlist [.atom "var", .atom "val", .atom "bindings"], vlist [.atom "doc", vlist [.atom "Add", .atom "a", mkList [.atom "var"] (.atom "value"), .atom "pair", .atom "to", .atom "a", .atom "binding", .atom "list"]], vlist [.atom "cons", vlist [.atom "cons", .atom "var", .atom "val"], vlist [.atom "cond", vlist [vlist [.atom "=", .atom "bindings", .atom "no-bindings"], .nil], vlist [.atom "t", .atom "bindings"]]]],
  vlist [.atom "defn", .atom "match-variable", vlist [.atom "var", .atom "input", .atom "bindings"], vlist [.atom "doc", vlist [.atom "Does", .atom "VAR", .atom "match", .atom "input?", .atom "Uses", vlist [.atom "or", .atom "updates"], .atom "and", .atom "returns", .atom "bindings"]], vlist [.atom "let", vlist [vlist [.atom "binding", vlist [.atom "get-binding", .atom "var", .atom "bindings"]]], vlist [.atom "cond", vlist [vlist [.atom "not", .atom "binding"], vlist [.atom "extend-bindings", .atom "var", .atom "input", .atom "bindings"]], vlist [vlist [.atom "=", .atom "input", vlist [.atom "binding-val", .atom "binding"]], .atom "bindings"], vlist [.atom "t", .atom "fail"]]]],
  vlist [.atom "defn", .atom "segment-pattern?", vlist [.atom "pattern"], vlist [.atom "doc", vlist [.atom "Is", .atom "this", .atom "a", .atom "segment", .atom "matching", .atom "pattern,", .atom "e.g.", mkList [vlist [.atom "?*", .atom "var"]] (.atom "pat")]], vlist [.atom "and", vlist [.atom "list?", .atom "pattern"], vlist [.atom "=", vlist [.atom "car", .atom "pattern"], vlist [.atom "quote", .atom "?*"]]]],
  vlist [.atom "defn", .atom "segment-pattern?", vlist [.atom "pattern"], vlist [.atom "doc", vlist [.atom "Is", .atom "this", .atom "a", .atom "segment", .atom "matching", .atom "pattern,", .atom "e.g.", mkList [vlist [.atom "?*", .atom "var"]] (.atom "pat")]], vlist [.atom "and", vlist [.atom "list?", .atom "pattern"], vlist [.atom "list?", vlist [.atom "car", .atom "pattern"]], vlist [.atom "=", vlist [.atom "car", vlist [.atom "car", .atom "pattern"]], vlist [.atom "quote", .atom "?*"]]]],
  vlist [.atom "defn", .atom "segment-match", vlist [.atom "pattern", .atom "input", .atom "bindings", .atom "start"], vlist [.atom "doc", vlist [.atom "Match", .atom "the", .atom "segment", .atom "pattern", mkList [vlist [.atom "?*", .atom "var"]] (.atom "pat"), .atom "against", .atom "input"]], vlist [.atom "let", vlist [vlist [.atom "var", vlist [.atom "cadr", vlist [.atom "car", .atom "pattern"]]], vlist [.atom "pat", vlist [.atom "cdr", .atom "pattern"]]], vlist [.atom "if", vlist [.atom "not", .atom "pat"], vlist [.atom "match-variable", .atom "var", .atom "input", .atom "bindings"], vlist [.atom "let", vlist [vlist [.atom "pos", vlist [.atom "position", vlist [.atom "car", .atom "pat"], .atom "input", .atom "start"]]], vlist [.atom "cond", vlist [vlist [.atom "not", .atom "pos"], .atom "fail"], vlist [.atom "t", vlist [.atom "let", vlist [vlist [.atom "b2", vlist [.atom "pat-match", .atom "pat", vlist [.atom "subseq", .atom "input", .atom "pos", .nil], vlist [.atom "match-variable", .atom "var", vlist [.atom "subseq", .atom "input", .num 0, .atom "pos"], .atom "bindings"]]]], vlist [.atom "if", vlist [.atom "=", .atom "b2", .atom "fail"], vlist [.atom "segment-match", .atom "pattern", .atom "input", .atom "bindings", vlist [.atom "+", .atom "pos", .num 1]], .atom "b2"]]]]]]]],
  vlist [.atom "defn", .atom "pat-match", vlist [.atom "pattern", .atom "input", .atom "bindings"], vlist [.atom "doc", vlist [.atom "Match", .atom "pattern", .atom "against", .atom "input", .atom "in", .atom "the", .atom "context", .atom "of", .atom "the", .atom "bindings"]], vlist [.atom "cond", vlist [vlist [.atom "=", .atom "bindings", .atom "fail"], .atom "fail"], vlist [vlist [.atom "=", .atom "pattern", .atom "input"], .atom "bindings"], vlist [vlist [.atom "segment-pattern?", .atom "pattern"], vlist [.atom "segment-match", .atom "pattern", .atom "input", .atom "bindings", .num 0]], vlist [vlist [.atom "and", vlist [.atom "list?", .atom "pattern"], vlist [.atom "list?", .atom "input"]], vlist [.atom "pat-match", vlist [.atom "cdr", .atom "pattern"], vlist [.atom "cdr", .atom "input"], vlist [.atom "pat-match", vlist [.atom "car", .atom "pattern"], vlist [.atom "car", .atom "input"], .atom "bindings"]]], vlist [.atom "t", .atom "fail"]]],
  vlist [.atom "defn", .atom "niladd", vlist [.atom "a", .atom "b"], vlist [.atom "cond", vlist [vlist [.atom "not", .atom "a"], .nil], vlist [vlist [.atom "not", .atom "b"], .nil], vlist [.atom "t", vlist [.atom "+", .atom "a", .atom "b"]]]],
  vlist [.atom "defn", .atom "position", vlist [.atom "a", .atom "input", .atom "start"], vlist [.atom "cond", vlist [vlist [.atom "not", .atom "input"], .nil], vlist [vlist [.atom "<", .num 0, .atom "start"], vlist [.atom "niladd", .atom "start", vlist [.atom "position", .atom "a", vlist [.atom "drop", .atom "start", .atom "input"], .num 0]]], vlist [vlist [.atom "=", .atom "a", vlist [.atom "car", .atom "input"]], .num 0], vlist [.atom "t", vlist [.atom "niladd", .num 1, vlist [.atom "position", .atom "a", vlist [.atom "cdr", .atom "input"], .num 0]]]]],
  vlist [.atom "defn", .atom "subseq", vlist [.atom "l", .atom "start", .atom "end"], vlist [.atom "if", vlist [.atom "not", .atom "end"], vlist [.atom "drop", .atom "start", .atom "l"], vlist [.atom "take", vlist [.atom "-", .atom "end", .atom "start"], vlist [.atom "subseq", .atom "l", .atom "start", .nil]]]],
  vlist [.atom "defn", .atom "rule-pattern", vlist [.atom "rule"], vlist [.atom "car", .atom "rule"]],
  vlist [.atom "defn", .atom "rule-responses", vlist [.atom "rule"], vlist [.atom "cdr", .atom "rule"]],
  vlist [.atom "def", .atom "*eliza-rules*", vlist [.atom "quote", vlist [vlist [vlist [vlist [.atom "?*", .atom "?x"], .atom "hello", vlist [.atom "?*", .atom "?y"]], vlist [.atom "How", .atom "do", .atom "you", .atom "do.", .atom "Please", .atom "state", .atom "your", .atom "problem."]], vlist [vlist [vlist [.atom "?*", .atom "?x"], .atom "I", .atom "want", vlist [.atom "?*", .atom "?y"]], vlist [.atom "What", .atom "would", .atom "it", .atom "mean", .atom "if", .atom "you", .atom "got", .atom "?y"], vlist [.atom "Why", .atom "do", .atom "you", .atom "want", .atom "?y"], vlist [.atom "Suppose", .atom "you", .atom "got", .atom "?y", .atom "soon"]], vlist [vlist [vlist [.atom "?*", .atom "?x"], .atom "if", vlist [.atom "?*", .atom "?y"]], vlist [.atom "Do", .atom "you", .atom "really", .atom "think", .atom "its", .atom "likely", .atom "that", .atom "?y"], vlist [.atom "Do", .atom "you", .atom "wish", .atom "that", .atom "?y"], vlist [.atom "What", .atom "do", .atom "you", .atom "think", .atom "about", .atom "?y"], vlist [.atom "Really--", .atom "if", .atom "?y"]], vlist [vlist [vlist [.atom "?*", .atom "?x"], .atom "no", vlist [.atom "?*", .atom "?y"]], vlist [.atom "Why", .atom "not?"], vlist [.atom "You", .atom "are", .atom "being", .atom "a", .atom "bit", .atom "negative"], vlist [.atom "Are", .atom "you", .atom "saying", .atom "NO", .atom "just", .atom "to", .atom "be", .atom "negative?"]], vlist [vlist [vlist [.atom "?*", .atom "?x"], .atom "I", .atom "was", vlist [.atom "?*", .atom "?y"]], vlist [.atom "Were", .atom "you", .atom "really?"], vlist [.atom "Perhaps", .atom "I", .atom "already", .atom "knew", .atom "you", .atom "were", .atom "?y"], vlist [.atom "Why", .atom "do", .atom "you", .atom "tell", .atom "me", .atom "you", .atom "were", .atom "?y", .atom "now?"]], vlist [vlist [vlist [.atom "?*", .atom "?x"], .atom "I", .atom "feel", vlist [.atom "?*", .atom "?y"]], vlist [.atom "Do", .atom "you", .atom "often", .atom "feel", .atom "?y", .atom "?"]], vlist [vlist [vlist [.atom "?*", .atom "?x"], .atom "I", .atom "felt", vlist [.atom "?*", .atom "?y"]], vlist [.atom "What", .atom "other", .atom "feelings", .atom "do", .atom "you", .atom "have?"]], vlist [vlist [vlist [.atom "?*", .atom "?x"]], vlist [.atom "Interesting"]]]]],
  vlist [.atom "defn", .atom "switch-viewpoint", vlist [.atom "words"], vlist [.atom "doc", vlist [.atom "Change", .atom "I", .atom "to", .atom "you", .atom "and", .atom "vice", .atom "versa,", .atom "and", .atom "so", .atom "on"]], vlist [.atom "sublis", vlist [.atom "quote", vlist [mkList [.atom "I"] (.atom "you"), mkList [.atom "you"] (.atom "I"), mkList [.atom "me"] (.atom "you"), mkList [.atom "am"] (.atom "are")]], .atom "words"]],
  vlist [.atom "defn", .atom "apply-rule", vlist [.atom "rule"], vlist [.atom "let", vlist [vlist [.atom "result", vlist [.atom "pat-match", vlist [.atom "rule-pattern", .atom "rule"], .atom "input", .atom "no-bindings"]]], vlist [.atom "when", vlist [.atom "not", vlist [.atom "=", .atom "result", .atom "fail"]], vlist [.atom "sublis", vlist [.atom "switch-viewpoint", .atom "result"], vlist [.atom "random-elt", vlist [.atom "rule-responses", .atom "rule"]]]]]],
  vlist [.atom "defn", .atom "use-eliza-rules", vlist [.atom "input"], vlist [.atom "doc", vlist [.atom "Find", .atom "some", .atom "rule", .atom "with", .atom "which", .atom "to", .atom "transform", .atom "the", .atom "input"]], vlist [.atom "some", vlist [.atom "lambda", vlist [.atom "rule"], vlist [.atom "let", vlist [vlist [.atom "result", vlist [.atom "pat-match", vlist [.atom "rule-pattern", .atom "rule"], .atom "input", .atom "no-bindings"]]], vlist [.atom "when", vlist [.atom "not", vlist [.atom "=", .atom "result", .atom "fail"]], vlist [.atom "sublis", vlist [.atom "switch-viewpoint", .atom "result"], vlist [.atom "randchoice", vlist [.atom "rule-responses", .atom "rule"]]]]]], .atom "*eliza-rules*"]],
  vlist [.atom "defn", .atom "eliza", .nil, vlist [.atom "doc", vlist [.atom "Respond", .atom "to", .atom "user", .atom "input", .atom "using", .atom "pattern", .atom "matching", .atom "rules."]], vlist [.atom "loop", vlist [.atom "print", vlist [.atom "quote", .atom "eliza>"]], vlist [.atom "print", .atom "SPACE"], vlist [.atom "printl", vlist [.atom "flatten", vlist [.atom "use-eliza-rules", vlist [.atom "readlist"]]]]]],
  vlist [.atom "test", vlist [.atom "quote", vlist [.atom "variable"]], vlist [.atom "is", vlist [.atom "variable?", vlist [.atom "quote", .atom "?x"]]], vlist [.atom "is", vlist [.atom "not", vlist [.atom "variable?", vlist [.atom "quote", .atom "foo"]]]]],
  vlist [.atom "test", vlist [.atom "quote", vlist [.atom "assoc"]], vlist [.atom "is", vlist [.atom "=", vlist [.atom "quote", mkList [.atom "i"] (.atom "you")], vlist [.atom "assoc", vlist [.atom "quote", .atom "i"], vlist [.atom "quote", vlist [mkList [.atom "i"] (.atom "you"), mkList [.atom "you"] (.atom "i"), mkList [.atom "me"] (.atom "you"), mkList [.atom "am"] (.atom "are")]]]]], vlist [.atom "is", vlist [.atom "=", vlist [.atom "quote", mkList [.atom "am"] (.atom "are")], vlist [.atom "assoc", vlist [.atom "quote", .atom "am"], vlist [.atom "quote", vlist [mkList [.atom "i"] (.atom "you"), mkList [.atom "you"] (.atom "i"), mkList [.atom "me"] (.atom "you"), mkList [.atom "am"] (.atom "are")]]]]]],
  vlist [.atom "test", vlist [.atom "quote", vlist [.atom "tree-sub", .atom "and", .atom "assoc-sub"]], vlist [.atom "is", vlist [.atom "=", vlist [.atom "quote", vlist [.num 2, .num 3, .num 4, vlist [.num 5, .num 6, vlist [.num 7], vlist [.num 8, .num 9], .num 10, .num 11, .num 12]]], vlist [.atom "tree-sub", .atom "inc", vlist [.atom "quote", vlist [.num 1, .num 2, .num 3, vlist [.num 4, .num 5, vlist [.num 6], vlist [.num 7, .num 8], .num 9, .num 10, .num 11]]]]]], vlist [.atom "is", vlist [.atom "=", vlist [.atom "quote", .atom "are"], vlist [.atom "assoc-sub", vlist [.atom "quote", vlist [mkList [.atom "i"] (.atom "you"), mkList [.atom "you"] (.atom "i"), mkList [.atom "me"] (.atom "you"), mkList [.atom "am"] (.atom "are")]], vlist [.atom "quote", .atom "am"]]]]],
  vlist [.atom "test", vlist [.atom "quote", vlist [.atom "sublis"]], vlist [.atom "is", vlist [.atom "=", vlist [.atom "quote", vlist [.atom "a", .atom "b", .atom "c"]], vlist [.atom "sublis", .nil, vlist [.atom "quote", vlist [.atom "a", .atom "b", .atom "c"]]]]], vlist [.atom "is", vlist [.atom "=", vlist [.atom "quote", vlist [.atom "what", .atom "would", .atom "it", .atom "mean", .atom "to", .atom "you", .atom "if", .atom "you", .atom "got", .atom "a", .atom "tree", vlist [.atom "or", .atom "something", .atom "better", .atom "than", .atom "a", .atom "tree"], .atom "?"]], vlist [.atom "sublis", vlist [.atom "quote", vlist [mkList [.atom "?X"] (.atom "tree")]], vlist [.atom "quote", vlist [.atom "what", .atom "would", .atom "it", .atom "mean", .atom "to", .atom "you", .atom "if", .atom "you", .atom "got", .atom "a", .atom "?X", vlist [.atom "or", .atom "something", .atom "better", .atom "than", .atom "a", .atom "?X"], .atom "?"]]]]]],
  vlist [.atom "test", vlist [.atom "quote", vlist [.atom "segment-pattern?"]], vlist [.atom "is", vlist [.atom "segment-pattern?", vlist [.atom "quote", mkList [vlist [.atom "?*", .atom "?x"]] (.atom "a")]]], vlist [.atom "is", vlist [.atom "not", vlist [.atom "segment-pattern?", vlist [.atom "quote", .atom "?a"]]]]],
  vlist [.atom "test", vlist [.atom "quote", vlist [.atom "position"]], vlist [.atom "is", vlist [.atom "=", .num 0, vlist [.atom "position", .num 0, vlist [.atom "range", .num 5], .num 0]]], vlist [.atom "is", vlist [.atom "=", .num 1, vlist [.atom "position", .num 1, vlist [.atom "range", .num 5], .num 0]]], vlist [.atom "is", vlist [.atom "not", vlist [.atom "position", vlist [.atom "quote", .atom "foo"], vlist [.atom "range", .num 5], .num 0]]], vlist [.atom "is", vlist [.atom "=", .num 4, vlist [.atom "position", .num 4, vlist [.atom "range", .num 5], .num 0]]], vlist [.atom "is", vlist [.atom "=", .num 4, vlist [.atom "position", .num 4, vlist [.atom "range", .num 5], .num 4]]]],
  vlist [.atom "test", vlist [.atom "quote", vlist [.atom "subseq"]], vlist [.atom "is", vlist [.atom "=", vlist [.atom "quote", .atom "lo_world"], vlist [.atom "fuse", vlist [.atom "subseq", vlist [.atom "split", vlist [.atom "quote", .atom "hello_world"]], .num 3, .nil]]]], vlist [.atom "is", vlist [.atom "=", vlist [.atom "quote", .atom "lo"], vlist [.atom "fuse", vlist [.atom "subseq", vlist [.atom "split", vlist [.atom "quote", .atom "hello_world"]], .num 3, .num 5]]]]],
  vlist [.atom "test", vlist [.atom "quote", vlist [.atom "some"]], vlist [.atom "is", vlist [.atom "not", vlist [.atom "some", .atom "odd?", vlist [.atom "quote", vlist [.num 2, .num 4, .num 6]]]]], vlist [.atom "is", vlist [.atom "=", .atom "t", vlist [.atom "some", .atom "odd?", vlist [.atom "quote", vlist [.num 2, .num 4, .num 5, .num 6]]]]], vlist [.atom "is", vlist [.atom "some", vlist [.atom "lambda", vlist [.atom "x"], vlist [.atom "=", .atom "x", .num 4]], vlist [.atom "quote", vlist [.num 2, .num 4, .num 5, .num 6]]]]],
  vlist [.atom "test", vlist [.atom "quote", vlist [.atom "pat-match"]], vlist [.atom "is", vlist [.atom "=", vlist [.atom "quote", vlist [vlist [.atom "?y", .atom "there"], vlist [.atom "?x"]]], vlist [.atom "pat-match", vlist [.atom "quote", vlist [vlist [.atom "?*", .atom "?x"], .atom "hello", vlist [.atom "?*", .atom "?y"]]], vlist [.atom "quote", vlist [.atom "hello", .atom "there"]], .atom "no-bindings"]]], vlist [.atom "is", vlist [.atom "=", vlist [.atom "quote", vlist [vlist [.atom "?y", .atom "vacation"]]], vlist [.atom "pat-match", vlist [.atom "quote", vlist [.atom "i", .atom "need", .atom "a", vlist [.atom "?*", .atom "?y"]]], vlist [.atom "quote", vlist [.atom "i", .atom "need", .atom "a", .atom "vacation"]], .atom "no-bindings"]]], vlist [.atom "is", vlist [.atom "=", .atom "fail", vlist [.atom "pat-match", vlist [.atom "quote", vlist [.atom "i", .atom "really", .atom "need", .atom "a", vlist [.atom "?*", .atom "?y"]]], vlist [.atom "quote", vlist [.atom "i", .atom "need", .atom "a", .atom "vacation"]], .atom "no-bindings"]]], vlist [.atom "is", vlist [.atom "=", .atom "no-bindings", vlist [.atom "pat-match", vlist [.atom "quote", vlist [.atom "this", .atom "is", .atom "easy"]], vlist [.atom "quote", vlist [.atom "this", .atom "is", .atom "easy"]], .atom "no-bindings"]]], vlist [.atom "is", vlist [.atom "=", .atom "fail", vlist [.atom "pat-match", vlist [.atom "quote", vlist [vlist [.atom "?*", .atom "?p"], .atom "need", vlist [.atom "?*", .atom "?x"]]], vlist [.atom "quote", vlist [.atom "Mr", .atom "Hulot", .atom "and", .atom "I", .atom "need", .atom "a", .atom "vacation"]], .atom "fail"]]], vlist [.atom "is", vlist [.atom "=", vlist [.atom "quote", vlist [vlist [.atom "?x", .atom "a", .atom "vacation"], vlist [.atom "?p", .atom "Mr", .atom "Hulot", .atom "and", .atom "I"]]], vlist [.atom "pat-match", vlist [.atom "quote", vlist [vlist [.atom "?*", .atom "?p"], .atom "need", vlist [.atom "?*", .atom "?x"]]], vlist [.atom "quote", vlist [.atom "Mr", .atom "Hulot", .atom "and", .atom "I", .atom "need", .atom "a", .atom "vacation"]], .atom "no-bindings"]]], vlist [.atom "is", vlist [.atom "=", vlist [.atom "quote", vlist [vlist [.atom "?x", .num 1, .num 2, .atom "a", .atom "b"]]], vlist [.atom "pat-match", vlist [.atom "quote", vlist [vlist [.atom "?*", .atom "?x"], .atom "a", .atom "b", vlist [.atom "?*", .atom "?x"]]], vlist [.atom "quote", vlist [.num 1, .num 2, .atom "a", .atom "b", .atom "a", .atom "b", .num 1, .num 2, .atom "a", .atom "b"]], .atom "no-bindings"]]]],
  vlist [.atom "test", vlist [.atom "quote", vlist [.atom "response"]], vlist [.atom "is", vlist [.atom "=", vlist [.atom "quote", vlist [.atom "Do", .atom "you", .atom "often", .atom "feel", .atom "sad", .atom "?"]], vlist [.atom "flatten", vlist [.atom "use-eliza-rules", vlist [.atom "quote", vlist [.atom "I", .atom "feel", .atom "sad"]]]]]]],
  vlist [.atom "eliza"]]

/-- `assoc`, examples/eliza.l1:7, as a function value. -/
def z_assoc : Val := .lam ["x", "pairs"] "" (vlist [vlist [.atom "cond", vlist [vlist [.atom "not", .atom "pairs"], .nil], vlist [vlist [.atom "=", .atom "x", vlist [.atom "caar", .atom "pairs"]], vlist [.atom "car", .atom "pairs"]], vlist [.atom "t", vlist [.atom "assoc", .atom "x", vlist [.atom "cdr", .atom "pairs"]]]]]) .nil false 0

/-- `mklist`, examples/eliza.l1:13, as a function value. -/
def z_mklist : Val := .lam ["x"] "" (vlist [vlist [.atom "if", vlist [.atom "list?", .atom "x"], .atom "x", vlist [.atom "list", .atom "x"]]]) .nil false 0

/-- `variable?`, examples/eliza.l1:18, as a function value. -/
def z_variableP : Val := .lam ["a"] "" (vlist [vlist [.atom "and", vlist [.atom "atom?", .atom "a"], vlist [.atom "=", vlist [.atom "car", vlist [.atom "split", .atom "a"]], vlist [.atom "quote", .atom "?"]]]]) .nil false 0

/-- `cadr`, examples/eliza.l1:23, as a function value. -/
def z_cadr : Val := .lam ["l"] "" (vlist [vlist [.atom "car", vlist [.atom "cdr", .atom "l"]]]) .nil false 0

/-- `assoc-sub`, examples/eliza.l1:25, as a function value. -/
def z_assoc_sub : Val := .lam ["alist", "item"] "" (vlist [vlist [.atom "let", vlist [vlist [.atom "match", vlist [.atom "assoc", .atom "item", .atom "alist"]]], vlist [.atom "if", .atom "match", vlist [.atom "cdr", .atom "match"], .atom "item"]]]) .nil false 0

/-- `tree-sub`, examples/eliza.l1:31, as a function value. -/
def z_tree_sub : Val := .lam ["f", "x"] "" (vlist [vlist [.atom "cond", vlist [vlist [.atom "not", .atom "x"], .nil], vlist [vlist [.atom "not", vlist [.atom "list?", .atom "x"]], vlist [.atom "f", .atom "x"]], vlist [.atom "t", vlist [.atom "cons", vlist [.atom "tree-sub", .atom "f", vlist [.atom "car", .atom "x"]], vlist [.atom "tree-sub", .atom "f", vlist [.atom "cdr", .atom "x"]]]]]]) .nil false 0

/-- `sublis`, examples/eliza.l1:37, as a function value. -/
def z_sublis : Val := .lam ["pairs", "l"] "" (vlist [vlist [.atom "tree-sub", vlist [.atom "lambda", vlist [.atom "x"], vlist [.atom "assoc-sub", .atom "pairs", .atom "x"]], .atom "l"]]) .nil false 0

/-- `get-binding`, examples/eliza.l1:44, as a function value. -/
def z_get_binding : Val := .lam ["var", "bindings"] "" (vlist [vlist [.atom "assoc", .atom "var", .atom "bindings"]]) (vlist [vlist [.atom "Find", .atom "a", mkList [.atom "variable"] (.atom "value"), .atom "pair", .atom "in", .atom "a", .atom "binding", .atom "list"]]) false 0

/-- `binding-val`, examples/eliza.l1:48, as a function value. -/
def z_binding_val : Val := .lam ["binding"] "" (vlist [vlist [.atom "cdr", .atom "binding"]]) (vlist [vlist [.atom "Get", .atom "the", .atom "value", .atom "part", .atom "of", .atom "a", .atom "single", .atom "binding"]]) false 0

/-- `lookup`, examples/eliza.l1:52, as a function value. -/
def z_lookup : Val := .lam ["var", "bindings"] "" (vlist [vlist [.atom "binding-val", vlist [.atom "get-binding", .atom "var", .atom "bindings"]]]) (vlist [vlist [.atom "Get", .atom "the", .atom "value", .atom "part", vlist [.atom "for", .atom "var"], .atom "from", .atom "a", .atom "binding", .atom "list"]]) false 0

/-- `extend-bindings`, examples/eliza.l1:56, as a function value. -/
def z_extend_bindings : Val := .lam ["var", "val", "bindings"] "" (vlist [vlist [.atom "cons", vlist [.atom "cons", .atom "var", .atom "val"], vlist [.atom "cond", vlist [vlist [.atom "=", .atom "bindings", .atom "no-bindings"], .nil], vlist [.atom "t", .atom "bindings"]]]]) (vlist [vlist [.atom "Add", .atom "a", mkList [.atom "var"] (.atom "value"), .atom "pair", .atom "to", .atom "a", .atom "binding", .atom "list"]]) false 0

/-- `match-variable`, examples/eliza.l1:64, as a function value. -/
def z_match_variable : Val := .lam ["var", "input", "bindings"] "" (vlist [vlist [.atom "let", vlist [vlist [.atom "binding", vlist [.atom "get-binding", .atom "var", .atom "bindings"]]], vlist [.atom "cond", vlist [vlist [.atom "not", .atom "binding"], vlist [.atom "extend-bindings", .atom "var", .atom "input", .atom "bindings"]], vlist [vlist [.atom "=", .atom "input", vlist [.atom "binding-val", .atom "binding"]], .atom "bindings"], vlist [.atom "t", .atom "fail"]]]]) (vlist [vlist [.atom "Does", .atom "VAR", .atom "match", .atom "input?", .atom "Uses", vlist [.atom "or", .atom "updates"], .atom "and", .atom "returns", .atom "bindings"]]) false 0

/-- `segment-pattern?`, examples/eliza.l1:77, as a function value. -/
def z_segment_patternP : Val := .lam ["pattern"] "" (vlist [vlist [.atom "and", vlist [.atom "list?", .atom "pattern"], vlist [.atom "list?", vlist [.atom "car", .atom "pattern"]], vlist [.atom "=", vlist [.atom "car", vlist [.atom "car", .atom "pattern"]], vlist [.atom "quote", .atom "?*"]]]]) (vlist [vlist [.atom "Is", .atom "this", .atom "a", .atom "segment", .atom "matching", .atom "pattern,", .atom "e.g.", mkList [vlist [.atom "?*", .atom "var"]] (.atom "pat")]]) false 0

/-- `segment-match`, examples/eliza.l1:84, as a function value. -/
def z_segment_match : Val := .lam ["pattern", "input", "bindings", "start"] "" (vlist [vlist [.atom "let", vlist [vlist [.atom "var", vlist [.atom "cadr", vlist [.atom "car", .atom "pattern"]]], vlist [.atom "pat", vlist [.atom "cdr", .atom "pattern"]]], vlist [.atom "if", vlist [.atom "not", .atom "pat"], vlist [.atom "match-variable", .atom "var", .atom "input", .atom "bindings"], vlist [.atom "let", vlist [vlist [.atom "pos", vlist [.atom "position", vlist [.atom "car", .atom "pat"], .atom "input", .atom "start"]]], vlist [.atom "cond", vlist [vlist [.atom "not", .atom "pos"], .atom "fail"], vlist [.atom "t", vlist [.atom "let", vlist [vlist [.atom "b2", vlist [.atom "pat-match", .atom "pat", vlist [.atom "subseq", .atom "input", .atom "pos", .nil], vlist [.atom "match-variable", .atom "var", vlist [.atom "subseq", .atom "input", .num 0, .atom "pos"], .atom "bindings"]]]], vlist [.atom "if", vlist [.atom "=", .atom "b2", .atom "fail"], vlist [.atom "segment-match", .atom "pattern", .atom "input", .atom "bindings", vlist [.atom "+", .atom "pos", .num 1]], .atom "b2"]]]]]]]]) (vlist [vlist [.atom "Match", .atom "the", .atom "segment", .atom "pattern", mkList [vlist [.atom "?*", .atom "var"]] (.atom "pat"), .atom "against", .atom "input"]]) false 0

/-- `pat-match`, examples/eliza.l1:106, as a function value. -/
def z_pat_match : Val := .lam ["pattern", "input", "bindings"] "" (vlist [vlist [.atom "cond", vlist [vlist [.atom "=", .atom "bindings", .atom "fail"], .atom "fail"], vlist [vlist [.atom "=", .atom "pattern", .atom "input"], .atom "bindings"], vlist [vlist [.atom "segment-pattern?", .atom "pattern"], vlist [.atom "segment-match", .atom "pattern", .atom "input", .atom "bindings", .num 0]], vlist [vlist [.atom "and", vlist [.atom "list?", .atom "pattern"], vlist [.atom "list?", .atom "input"]], vlist [.atom "pat-match", vlist [.atom "cdr", .atom "pattern"], vlist [.atom "cdr", .atom "input"], vlist [.atom "pat-match", vlist [.atom "car", .atom "pattern"], vlist [.atom "car", .atom "input"], .atom "bindings"]]], vlist [.atom "t", .atom "fail"]]]) (vlist [vlist [.atom "Match", .atom "pattern", .atom "against", .atom "input", .atom "in", .atom "the", .atom "context", .atom "of", .atom "the", .atom "bindings"]]) false 0

/-- `niladd`, examples/eliza.l1:120, as a function value. -/
def z_niladd : Val := .lam ["a", "b"] "" (vlist [vlist [.atom "cond", vlist [vlist [.atom "not", .atom "a"], .nil], vlist [vlist [.atom "not", .atom "b"], .nil], vlist [.atom "t", vlist [.atom "+", .atom "a", .atom "b"]]]]) .nil false 0

/-- `position`, examples/eliza.l1:125, as a function value. -/
def z_position : Val := .lam ["a", "input", "start"] "" (vlist [vlist [.atom "cond", vlist [vlist [.atom "not", .atom "input"], .nil], vlist [vlist [.atom "<", .num 0, .atom "start"], vlist [.atom "niladd", .atom "start", vlist [.atom "position", .atom "a", vlist [.atom "drop", .atom "start", .atom "input"], .num 0]]], vlist [vlist [.atom "=", .atom "a", vlist [.atom "car", .atom "input"]], .num 0], vlist [.atom "t", vlist [.atom "niladd", .num 1, vlist [.atom "position", .atom "a", vlist [.atom "cdr", .atom "input"], .num 0]]]]]) .nil false 0

/-- `subseq`, examples/eliza.l1:131, as a function value. -/
def z_subseq : Val := .lam ["l", "start", "end"] "" (vlist [vlist [.atom "if", vlist [.atom "not", .atom "end"], vlist [.atom "drop", .atom "start", .atom "l"], vlist [.atom "take", vlist [.atom "-", .atom "end", .atom "start"], vlist [.atom "subseq", .atom "l", .atom "start", .nil]]]]) .nil false 0

/-- `rule-pattern`, examples/eliza.l1:136, as a function value. -/
def z_rule_pattern : Val := .lam ["rule"] "" (vlist [vlist [.atom "car", .atom "rule"]]) .nil false 0

/-- `rule-responses`, examples/eliza.l1:137, as a function value. -/
def z_rule_responses : Val := .lam ["rule"] "" (vlist [vlist [.atom "cdr", .atom "rule"]]) .nil false 0

/-- `switch-viewpoint`, examples/eliza.l1:161, as a function value. -/
def z_switch_viewpoint : Val := .lam ["words"] "" (vlist [vlist [.atom "sublis", vlist [.atom "quote", vlist [mkList [.atom "I"] (.atom "you"), mkList [.atom "you"] (.atom "I"), mkList [.atom "me"] (.atom "you"), mkList [.atom "am"] (.atom "are")]], .atom "words"]]) (vlist [vlist [.atom "Change", .atom "I", .atom "to", .atom "you", .atom "and", .atom "vice", .atom "versa,", .atom "and", .atom "so", .atom "on"]]) false 0

/-- `apply-rule`, examples/eliza.l1:166, as a function value. -/
def z_apply_rule : Val := .lam ["rule"] "" (vlist [vlist [.atom "let", vlist [vlist [.atom "result", vlist [.atom "pat-match", vlist [.atom "rule-pattern", .atom "rule"], .atom "input", .atom "no-bindings"]]], vlist [.atom "when", vlist [.atom "not", vlist [.atom "=", .atom "result", .atom "fail"]], vlist [.atom "sublis", vlist [.atom "switch-viewpoint", .atom "result"], vlist [.atom "random-elt", vlist [.atom "rule-responses", .atom "rule"]]]]]]) .nil false 0

/-- `use-eliza-rules`, examples/eliza.l1:174, as a function value. -/
def z_use_eliza_rules : Val := .lam ["input"] "" (vlist [vlist [.atom "some", vlist [.atom "lambda", vlist [.atom "rule"], vlist [.atom "let", vlist [vlist [.atom "result", vlist [.atom "pat-match", vlist [.atom "rule-pattern", .atom "rule"], .atom "input", .atom "no-bindings"]]], vlist [.atom "when", vlist [.atom "not", vlist [.atom "=", .atom "result", .atom "fail"]], vlist [.atom "sublis", vlist [.atom "switch-viewpoint", .atom "result"], vlist [.atom "randchoice", vlist [.atom "rule-responses", .atom "rule"]]]]]], .atom "*eliza-rules*"]]) (vlist [vlist [.atom "Find", .atom "some", .atom "rule", .atom "with", .atom "which", .atom "to", .atom "transform", .atom "the", .atom "input"]]) false 0

/-- `eliza`, examples/eliza.l1:183, as a function value. -/
def z_eliza : Val := .lam [] "" (vlist [vlist [.atom "loop", vlist [.atom "print", vlist [.atom "quote", .atom "eliza>"]], vlist [.atom "print", .atom "SPACE"], vlist [.atom "printl", vlist [.atom "flatten", vlist [.atom "use-eliza-rules", vlist [.atom "readlist"]]]]]]) (vlist [vlist [.atom "Respond", .atom "to", .atom "user", .atom "input", .atom "using", .atom "pattern", .atom "matching", .atom "rules."]]) false 0

end L1
