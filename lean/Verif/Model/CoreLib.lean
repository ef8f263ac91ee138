import Verif.Model.Main
/-
GENERATED by scripts/gen_core.py from /repo/lisp/l1.l1 (embedded by lisp/core.go:5-6); do not edit.
The core library: its text, line by line, and the forms it consists of.  Lemmas/CoreText.lean proves that reading the text gives the forms,
Lemmas/CoreLoad.lean that evaluating them gives the bindings `coreDefs`.
-/
set_option autoImplicit false
namespace L1

/-- The lines of lisp/l1.l1, one element per top-level form (with the comments and blank lines around it). -/
def coreChunks : List (List String) := [
  [";; pi x 10**100:",
   "(def pi100 (fuse '(31415926535897932384626433832795028",
   "                   84197169399375105820974944592307816",
   "                   406286208998628034825342117067)))",
   ""],
  ["(defn identity (x)",
   "  (doc (return the argument))",
   "  x)",
   ""],
  ["(defn concat2 (a b)",
   "  (doc (concatenate two lists)",
   "       (used in syntax quote expansion -- use only builtin functions)",
   "       (as it is used during syntax quote expansion, it needs to be",
   "           defined early and to use native functinos only)",
   "       (examples",
   "        (concat2 () ())",
   "        (concat2 '(1 2) '(3 4))))",
   "  (cond ((not a) b)",
   "        (t (cons (car a)",
   "                 (concat2 (cdr a) b)))))",
   ""],
  ["(defn c*r (path l)",
   "  (doc ())  ;; undocumented, for internal use for caar, cadar, cddar, etc.",
   "  (cond ((not path) l)",
   "        ((= 'a (car path)) (c*r (cdr path) (car l)))",
   "        ((= 'd (car path)) (c*r (cdr path) (cdr l)))",
   "        (t (error (concat2 '(unknown c*r path element)",
   "                           (list COLON (car path)))))))",
   ""],
  ["(defmacro if (condition then else)",
   "  (doc (simple conditional with two branches)",
   "       (examples",
   "        (if t",
   "          111",
   "          333)",
   "        (if ()",
   "          'abc",
   "          'def)))",
   "  `(cond (~condition ~then)",
   "         (t ~else)))",
   ""],
  ["(defmacro if-not (condition then else)",
   "  (doc (simple (inverted) conditional with two branches)",
   "       (examples",
   "        (if-not (odd? 3)",
   "          '(help, they broke three)",
   "          '(three is odd))))",
   "  `(cond ((not ~condition) ~then)",
   "         (t ~else)))",
   ""],
  ["(defmacro comment (() . body)",
   "  (doc (ignore the expressions in the block)",
   "       (examples",
   "        (comment twas brillig, and the slithy toves",
   "                 did gyre and gimble in the wabe))))",
   ""],
  ["(defmacro progn (() . body)",
   "  (doc (execute multiple statements, returning the last)",
   "       (examples",
   "        (progn)",
   "        (progn",
   "          1",
   "          2",
   "          3)))",
   "  `(let () ~@body))",
   ""],
  ["(defmacro when (condition . body)",
   "  (doc (simple conditional with single branch)",
   "       (examples",
   "        (when ()",
   "          (/ 1 0))",
   "        (when t",
   "          '(the sun rises in the east))))",
   "  `(cond (~condition (progn ~@body))))",
   ""],
  ["(defmacro when-not (condition . body)",
   "  (doc (complement of the when macro)",
   "       (examples",
   "        (when-not ()",
   "          '(do all the things))",
   "        (when-not t",
   "          (error '(oh no mister bill)))))",
   "  `(when (not ~condition)",
   "     ~@body))",
   ""],
  ["(defmacro foreach (x xs . body)",
   "  (doc (execute body for each value in a list))",
   "  `(map (lambda (~x)",
   "          ~@body)",
   "        ~xs))",
   ""],
  ["(defn reduce (f x . args)",
   "  (doc (successively apply a function against a list of arguments)",
   "       (examples",
   "        (reduce * (cdr (range 10)))",
   "        (reduce (lambda (acc x)",
   "                  (cons x acc))",
   "                ()",
   "                (range 10))))",
   "  (let ((inner (lambda inner (f acc l)",
   "                 (if (not l)",
   "                   acc",
   "                   (inner f",
   "                          (f acc (car l))",
   "                          (cdr l))))))",
   "    (cond ((not args)        ;; no accumulator given",
   "           (if (not x)",
   "             (f)",
   "             (inner f (car x) (cdr x))))",
   "          ((= (len args) 1)  ;; x is the accumulator",
   "           (inner f x (car args)))",
   "          (t",
   "           (error '(reduce needs at least two arguments))))))",
   ""],
  ["(defn concat (() . lists)",
   "  (doc (concatenenate any number of lists)",
   "       (examples",
   "        (concat (range 3) '(wow) (reverse (range 3)))",
   "        ;;=> (0 1 2 wow 2 1 0)",
   "        ))",
   "  (let ((concat2 (lambda concat2 (a b)",
   "                   (if (not a)",
   "                     b",
   "                     (cons (car a)",
   "                           (concat2 (cdr a) b))))))",
   "    (when lists",
   "      (reduce concat2 lists))))",
   ""],
  ["(defn reverse (l)",
   "  (doc (reverse a list)",
   "       (examples",
   "        (= '(c b a) (reverse '(a b c)))))",
   "  (when l",
   "    (concat (reverse (cdr l))",
   "            (cons (car l) ()))))",
   ""],
  ["(defn zero? (n)",
   "  (doc (return true iff the supplied argument is zero)",
   "       (examples",
   "        (zero? 'zero)",
   "        (zero? (- 1 1))))",
   "  (= n 0))",
   ""],
  ["(defn neg? (n)",
   "  (doc (return true iff the supplied integer argument is less than zero)",
   "       (examples",
   "        (map neg?",
   "             (map (lambda (x) (- x 5))",
   "                  (range 10)))))",
   "  (< n 0))",
   ""],
  ["(defn juxt (() . fs)",
   "  (doc (create a function which combines multiple",
   "               operations into a single list of results)",
   "       (examples",
   "        ((juxt inc dec) 0)",
   "        (map (juxt inc dec) (range 3))",
   "        (map (juxt even? odd? zero?)",
   "             '(-2 -1 0 1 2))",
   "        (map (juxt) (range 3))))",
   "  (lambda (x)",
   "    (map (lambda (f)",
   "           (f x))",
   "         fs)))",
   ""],
  ["(defn pos? (n)",
   "  (doc (return true iff the supplied integer argument is greater than zero)",
   "       (examples",
   "        (map pos?",
   "             (map (lambda (x) (- x 5))",
   "                  (range 10)))))",
   "  (< 0 n))",
   ""],
  ["(defn inc (n)",
   "  (doc (return the supplied integer argument, plus one))",
   "  (+ n 1))",
   ""],
  ["(defn dec (n)",
   "  (doc (return the supplied integer argument, minus one)",
   "       (examples",
   "        (dec 2)",
   "        (dec -1)))",
   "  (- n 1))",
   ""],
  ["(defn range (n)",
   "  (when (pos? n)",
   "    (let ((inner (lambda inner (n)",
   "                   (if (= 1 n)",
   "                     (cons (dec n) ())",
   "                     (cons (dec n) (inner (dec n)))))))",
   "      (reverse (inner n)))))",
   ""],
  ["(defmacro while (condition . body)",
   "  (doc (loop for as long as condition is true)",
   "       (examples",
   "        (while ()",
   "          (launch-missiles))))",
   "  (let ((inner-sym (gensym 'inner)))",
   "    `(let ((~inner-sym (lambda ~inner-sym ()",
   "                         (when ~condition",
   "                           ~@body",
   "                           (~inner-sym)))))",
   "       (~inner-sym))))",
   ""],
  ["(defn range (n)",
   "  (doc (list of integers from 0 to n)",
   "       (examples",
   "        (range 10)",
   "        (len (range 100))))",
   "  (when (pos? n)",
   "    (let ((c n)",
   "          (acc ()))",
   "      (while (pos? c)",
   "        (set! c (dec c))",
   "        (set! acc (cons c acc)))",
   "      acc)))",
   ""],
  ["(defn nth (n l)",
   "  (doc (find the nth value of a list, starting from zero)",
   "       (examples",
   "        (nth 3 '(one two three four five))",
   "        (nth 1000 (range 2))))",
   "  (cond",
   "   ((not l) ())",
   "   ((zero? n) (car l))",
   "   (t (nth (dec n) (cdr l)))))",
   ""],
  ["(defn last (l)",
   "  (doc (return the last item in a list)",
   "       (examples",
   "        (last (range 10))",
   "        (last (split 'ATOM!))))",
   "  (let ((c (cdr l)))",
   "    (if-not c",
   "      (car l)",
   "      (last c))))",
   ""],
  ["(defn take (n l)",
   "  (doc (take up to n items from the supplied list)",
   "       (examples",
   "        (take 3 (range 10))))",
   "  (cond ((zero? n) ())",
   "        ((not l) ())",
   "        (t (cons (car l) (take (dec n) (cdr l))))))",
   ""],
  ["(defn drop (n l)",
   "  (doc (drop n items from a list, then return the rest)",
   "       (examples",
   "        (drop 3 (range 10))))",
   "  (cond ((zero? n) l)",
   "        ((not l) ())",
   "        (t (drop (dec n)",
   "                 (cdr l)))))",
   ""],
  ["(defn complement (f)",
   "  (doc (return the logical complement of the supplied function)",
   "       (examples",
   "        ((complement even?) 1)              ;;=> t",
   "        (map (complement odd?) (range 5)))) ;;=> (t () t () t)",
   "  ;; FIXME: n-ary? Need to fix `apply` to work w/ rest arguments.",
   "  (lambda (x)",
   "    (not (f x))))",
   ""],
  ["(defn even? (n)",
   "  (doc (return true if the supplied integer argument is even)",
   "       (examples",
   "        (map even? (range 5))))",
   "  (zero? (rem n 2)))",
   ""],
  ["(defn odd? (n)",
   "  (doc (return true if the supplied integer argument is odd)",
   "       (examples",
   "        (map even? (range 5))))",
   "  (not (even? n)))",
   ""],
  ["(defn flatten (l)",
   "  (doc (return a (possibly nested) list, flattened)",
   "       (examples",
   "        (flatten '(this is a",
   "                        (really",
   "                         (nested) list)))))",
   "  (cond ((not l) ())",
   "        ((list? l)",
   "         (concat (flatten (car l))",
   "                 (flatten (cdr l))))",
   "        (t (list l))))",
   ""],
  ["(defn constantly (x)",
   "  (doc (given a value, return a function which always returns that value)",
   "       (examples",
   "        (map (constantly t)",
   "             (range 10))",
   "        ;;=> (t t t t t t t t t t)",
   "        ))",
   "  (lambda (() . _)",
   "    x))",
   ""],
  ["(defn repeat (n x)",
   "  (doc (return a list of length n whose elements are all x)",
   "       (examples",
   "        (repeat 5 'repetitive)))",
   "  (when (pos? n)",
   "    (cons x (repeat (dec n) x))))",
   ""],
  ["(defn repeatedly (n f)",
   "  (doc (return a list of length n whose elements are made from calling f repeatedly)",
   "       (examples",
   "        (repeatedly 3 (lambda () (range 5)))))",
   "  (when-not (zero? n)",
   "    (cons (f) (repeatedly (dec n) f))))",
   ""],
  ["(defn true? (x)",
   "  (doc (return t if the argument is t)",
   "       (examples",
   "        (true? 3)",
   "        (true? t)))",
   "  (= x t))",
   ""],
  ["(defn map (f l)",
   "  (doc (apply the supplied function to every element in the supplied list)",
   "       (examples",
   "        (map odd? (range 5))",
   "        (map true? '(foo t () t 3))))",
   "  (when l",
   "    (cons (f (car l))",
   "          (map f (cdr l)))))",
   ""],
  ["(defn mapcat (f l)",
   "  (doc (map a function onto a list and concatenate results)",
   "       (examples",
   "        (map list (range 5))",
   "        (mapcat list (range 5))",
   "        (map range (range 5))",
   "        (mapcat range (range 5))))",
   "  (reduce concat (map f l)))",
   ""],
  ["(defn filter (f l)",
   "  (doc (keep only values for which function f is true)",
   "       (examples",
   "        (filter odd? (range 5))))",
   "  (cond ((not l) ())",
   "        ((f (car l)) (cons (car l)",
   "                           (filter f (cdr l))))",
   "        (t (filter f (cdr l)))))",
   ""],
  ["(defn remove (f l)",
   "  (doc (keep only values for which function f is false / the empty list)",
   "       (examples",
   "        (remove odd? (range 5))))",
   "  (filter (complement f) l))",
   ""],
  ["(defn ** (n m)",
   "  (doc (exponentiation operator)",
   "       (examples",
   "        (** 1 0)",
   "        (** 2 4)",
   "        (** 10 10)))",
   "  (if (zero? m)",
   "    1",
   "    (* n (** n (dec m)))))",
   ""],
  ["(defn capitalize (a)",
   "  (doc (return the atom argument, capitalized)",
   "       (examples",
   "        (capitalize 'hello))) ;;=> Hello",
   "  (let ((s (split a)))",
   "    (fuse (concat (map upcase (take 1 s))",
   "                  (drop 1 s)))))",
   ""],
  ["(defn randigits (n)",
   "  (doc (return a random integer between 0 and the argument minus 1))",
   "  (repeatedly n",
   "              (lambda () (randint 10))))",
   ""],
  ["(defn randchoice (l)",
   "  (doc (return an element at random from the supplied list))",
   "  (when-not l",
   "    (error '(randchoice expects a nonempty list)))",
   "  (nth (randint (len l)) l))",
   ""],
  ["(defn randalpha (n)",
   "  (doc (return a list of random (English/Latin/unaccented)",
   "               lower-case alphabetic characters))",
   "  (repeatedly n",
   "              (lambda ()",
   "                (randchoice (split 'abcdefghijklmnopqrstuvwxyz)))))",
   ""],
  ["(defmacro dotimes (n . body)",
   "  (doc (execute body for each value in a list))",
   "  (let ((inner-sym (gensym))",
   "        (n-sym (gensym)))",
   "    `(let ((~n-sym ~n))",
   "       (when-not (neg? ~n-sym)",
   "         (let ((~inner-sym (lambda ~inner-sym (count)",
   "                             (when-not (zero? count)",
   "                               ~@body",
   "                               (~inner-sym (- count 1))))))",
   "           (~inner-sym ~n-sym))))))",
   ""],
  ["(defn butlast (l)",
   "  (doc (return everything but the last element)",
   "       (examples",
   "        (butlast ()) ;;=> ()",
   "        (butlast (range 3)))) ;;=> (0 1)",
   "  (take (dec (len l)) l))",
   ""],
  ["(defn punctuate (f x)",
   "  (doc (return x capitalized, with punctuation determined by the supplied function))",
   "  (cond ((not x) x)",
   "        ((= (len x) 1) (list (capitalize (f (car x)))))",
   "        (t (cons (capitalize (car x))",
   "                 (concat (cdr (butlast x))",
   "                         (list (f (last x))))))))",
   ""],
  ["(defn tosentence (l)",
   "  (doc (return l as a sentence... capitalized, with a period at the end)",
   "       (examples",
   "        (tosentence '(to be, or not to be, that is the question))))",
   "  (punctuate period l))",
   ""],
  ["(defn exclaim (l)",
   "  (doc (return l as a sentence... emphasized!)",
   "       (examples",
   "        (exclaim '(well, hello))",
   "        (exclaim '(help))",
   "        (exclaim '(begone, fiend))))",
   "  (punctuate bang l))",
   ""],
  ["(defn list* (() . args)",
   "  (doc (create a list by consing everything but the last arg onto the last)",
   "       (examples",
   "        (list* 1 2 '(3))",
   "        (list* 1 2 '(3 4))",
   "        (list*)))",
   "  (when args",
   "    (let ((endl (last args))",
   "          (other (butlast args)))",
   "      (concat other endl))))",
   ""],
  ["(defmacro with-screen (() . body)",
   "  (doc (prepare for and clean up after screen operations))",
   "  `(progn",
   "     (screen-start)",
   "     (let ((result",
   "            (progn ~@body)))",
   "       (screen-end)",
   "       result)))",
   ""],
  ["(defn some (f l)",
   "  (doc (return f applied to first element for which that result is truthy, else ())",
   "       (examples",
   "        (some even? '(1 3 5 7 9 11 13))",
   "        (some even? '(1 3 5 7 9 1000 11 13))))",
   "  (when l",
   "    (let ((result (f (car l))))",
   "      (if result",
   "        result",
   "        (some f (cdr l))))))",
   ""],
  ["(defn every (f l)",
   "  (doc (return t if f applied to every element in l is truthy, else ())",
   "       (examples",
   "        (every odd? '(1 3 5))",
   "        (every odd? '(1 2 3 5))))",
   "  (if-not l",
   "    t",
   "    (let ((result (f (car l))))",
   "      (if (not result)",
   "        ()",
   "        (every f (cdr l))))))",
   ""],
  ["(defn punctuate-atom (a mark)",
   "  (doc (add a punctuation mark at end of atom)",
   "       (examples",
   "        (punctuate-atom 'list '*)",
   "        (punctuate-atom 'list COLON)))",
   "  (let ((l (split a)))",
   "    (fuse (concat l (list mark)))))",
   ""],
  ["(defn bang (a)",
   "  (doc (add an exclamation point at end of atom)",
   "       (examples",
   "        (bang 'Bang))) ;;=> Bang!",
   "  (punctuate-atom a BANG))",
   ""],
  ["(defn comma (a)",
   "  (doc (add a comma at end of atom)",
   "       (examples",
   "        (comma 'hello))) ;;=> hello,",
   "  (punctuate-atom a COMMA))",
   ""],
  ["(defn period (a)",
   "  (doc (add a period at end of atom)",
   "       (examples",
   "        (period 'Woot))) ;;=> Woot.",
   "  (punctuate-atom a PERIOD))",
   ""],
  ["(defn colon (a)",
   "  (doc (add a colon at end of atom)",
   "       (examples",
   "        (colon 'remember-this))) ;;=> remember-this:",
   "  (punctuate-atom a COLON))",
   ""],
  ["(defmacro is (condition)",
   "  (doc (assert a condition is truthy, or show failing code)",
   "       (examples",
   "        (is t)",
   "        (is (car (cons () '(this one should fail))))))",
   "  ;; FIXME: why doesn't if / if-not work here?",
   "  (cond",
   "   ((or (not (list? condition))",
   "        (not (= '= (car condition)))",
   "        (not (= 3 (len condition))))",
   "    (let ((result (gensym 'result)))",
   "      `(let ((~result ~condition))",
   "         (when-not ~result",
   "           (error '(assertion ~(fuse (list 'failed COLON)) ~condition))))))",
   "   ;; Handle equality in more detail: show details when equality of",
   "   ;; two terms fails:",
   "   (t",
   "    (let ((lhs (nth 1 condition))",
   "          (rhs (nth 2 condition))",
   "          (lhsym (gensym 'lhs))",
   "          (rhsym (gensym 'rhs)))",
   "      `(let ((~lhsym ~lhs)",
   "             (~rhsym ~rhs))",
   "         (when-not (= ~lhsym ~rhsym)",
   "           (error",
   "            (concat (list 'expression",
   "                          (quote ~lhs)",
   "                          '==>",
   "                          ~lhsym)",
   "                    '(is not equal to)",
   "                    (list 'expression",
   "                          (quote ~rhs)",
   "                          '==>",
   "                          ~rhsym)))))))))",
   ""],
  ["(defmacro let* (pairs . body)",
   "  (doc (let form with ability to refer to previously-bound",
   "            pairs in the binding list)",
   "       (examples",
   "        (let* ((a 1) (b (inc a)))",
   "          (+ a b))))",
   "  (if-not pairs",
   "    (list* 'progn body)",
   "    `(let (~(car pairs))",
   "       (let* (~@(cdr pairs))",
   "         ~@body))))",
   ""],
  ["(def first car)",
   ""],
  ["(defn second (l)",
   "  (doc (return the second element of a list,",
   "               or () if not enough elements)",
   "       (examples",
   "        (second ())",
   "        (second '(a))",
   "        (second '(a b))",
   "        (second '(1 2 3))))",
   "  (car (cdr l)))",
   ""],
  ["(defn comp (() . fs)",
   "  (doc (function composition -- return a function which",
   "                 applies a series of functions in reverse order)",
   "       (examples",
   "        ((comp) 'hello)",
   "        ((comp split) 'hello)",
   "        ((comp len split) 'hello)",
   "        ((comp (partial apply +)",
   "               (partial map len)",
   "               (partial map split))",
   "         '(hello world))))",
   "  (let ((n (len fs))",
   "        (f (car fs))",
   "        (g (second fs)))",
   "    (cond ((zero? n) identity)",
   "          ((= n 1) f)",
   "          ((= n 2) (lambda (() . xs)",
   "                     (f (apply g xs))))",
   "          (t (reduce comp (list* f g (cdr (cdr fs))))))))",
   ""],
  ["(defn partial (f . args)",
   "  (doc (partial function application)",
   "       (return a new function which wraps the supplied arguments)",
   "       (examples",
   "        ((partial + 1) 1)",
   "        ((partial + 2 3) 4 5)))",
   "  (lambda (() . more)",
   "    (apply f (concat args more))))",
   ""],
  ["(defn max (() . args)",
   "  (doc (find maximum of one or more numbers)",
   "       (examples",
   "        (max -5)",
   "        (max 2 3)",
   "        (apply max (range 10))))",
   "  (let ((n (len args))",
   "        (n1 (first args))",
   "        (n2 (second args)))",
   "    (cond ((zero? n) (error '(max needs at least one number)))",
   "          ((= 1 n) n1)",
   "          ((= 2 n) (if (< n1 n2) n2 n1))",
   "          (t (reduce max (max n1 n2) (cdr (cdr args)))))))",
   ""],
  ["(defn min (() . args)",
   "  (doc (find minimum of one or more numbers)",
   "       (examples",
   "        (min -5)",
   "        (min 2 3)",
   "        (apply min (range 10))))",
   "  (let ((n (len args))",
   "        (n1 (first args))",
   "        (n2 (second args)))",
   "    (cond ((zero? n) (error '(min needs at least one number)))",
   "          ((= 1 n) n1)",
   "          ((= 2 n) (if (< n2 n1) n2 n1))",
   "          (t (reduce min (min n1 n2) (cdr (cdr args)))))))",
   ""],
  ["(defn not= (() . terms)",
   "  (doc (complement of = function)",
   "       (examples",
   "        (not= 1 2)",
   "        (not= 'a 'a)))",
   "  (not (apply = terms)))",
   ""],
  ["(defn interpose (x l)",
   "  (doc (interpose x between all elements of l)",
   "       (examples (interpose BANG (range 5))))",
   "  (cond ((not l) ())",
   "        ((not (cdr l)) l)",
   "        (t (cons (car l)",
   "                 (cons x (interpose x (cdr l)))))))",
   ""],
  ["(defn enumerate (l)",
   "  (doc (returning list of (i, x) pairs where i is the index",
   "                  (from zero) and x is the original element from l)",
   "       (examples",
   "        (enumerate '(a b c))))",
   "  (let ((c 0)",
   "        (ret ()))",
   "    (foreach x l",
   "      (set! ret (cons (list c x)",
   "                      ret))",
   "      (set! c (inc c)))",
   "    (reverse ret)))",
   ""],
  ["(defn abs (x)",
   "  (doc (return absolute value of x)",
   "       (examples",
   "        (abs 1)",
   "        (abs -100)))",
   "  (if (neg? x) (- x) x))",
   ""]]

/-- `RawCore`, lisp/core.go:5-6: the text of lisp/l1.l1. -/
def coreText : List Char := joinNl ((coreChunks.flatten).map String.toList)

/-- The body of `identity`, lisp/l1.l1:6. -/
def k_identity_body : Val := vlist [.atom "x"]

/-- The documentation of `identity`, lisp/l1.l1:6. -/
def k_identity_doc : Val := (vlist [vlist [.atom "return", .atom "the", .atom "argument"]])

/-- `identity`, lisp/l1.l1:6, as a function value. -/
def k_identity : Val := .lam ["x"] "" k_identity_body k_identity_doc false 0

/-- The body of `concat2`, lisp/l1.l1:10. -/
def k_concat2_body : Val := vlist [vlist [.atom "cond", vlist [vlist [.atom "not", .atom "a"], .atom "b"], vlist [.atom "t", vlist [.atom "cons", vlist [.atom "car", .atom "a"], vlist [.atom "concat2", vlist [.atom "cdr", .atom "a"], .atom "b"]]]]]

/-- The documentation of `concat2`, lisp/l1.l1:10. -/
def k_concat2_doc : Val := (vlist [vlist [.atom "concatenate", .atom "two", .atom "lists"], vlist [.atom "used", .atom "in", .atom "syntax", .atom "quote", .atom "expansion", .atom "--", .atom "use", .atom "only", .atom "builtin", .atom "functions"], vlist [.atom "as", .atom "it", .atom "is", .atom "used", .atom "during", .atom "syntax", .atom "quote", .atom "expansion,", .atom "it", .atom "needs", .atom "to", .atom "be", .atom "defined", .atom "early", .atom "and", .atom "to", .atom "use", .atom "native", .atom "functinos", .atom "only"], vlist [.atom "examples", vlist [.atom "concat2", .nil, .nil], vlist [.atom "concat2", vlist [.atom "quote", vlist [.num 1, .num 2]], vlist [.atom "quote", vlist [.num 3, .num 4]]]]])

/-- `concat2`, lisp/l1.l1:10, as a function value. -/
def k_concat2 : Val := .lam ["a", "b"] "" k_concat2_body k_concat2_doc false 0

/-- The body of `c*r`, lisp/l1.l1:22. -/
def k_cStarr_body : Val := vlist [vlist [.atom "cond", vlist [vlist [.atom "not", .atom "path"], .atom "l"], vlist [vlist [.atom "=", vlist [.atom "quote", .atom "a"], vlist [.atom "car", .atom "path"]], vlist [.atom "c*r", vlist [.atom "cdr", .atom "path"], vlist [.atom "car", .atom "l"]]], vlist [vlist [.atom "=", vlist [.atom "quote", .atom "d"], vlist [.atom "car", .atom "path"]], vlist [.atom "c*r", vlist [.atom "cdr", .atom "path"], vlist [.atom "cdr", .atom "l"]]], vlist [.atom "t", vlist [.atom "error", vlist [.atom "concat2", vlist [.atom "quote", vlist [.atom "unknown", .atom "c*r", .atom "path", .atom "element"]], vlist [.atom "list", .atom "COLON", vlist [.atom "car", .atom "path"]]]]]]]

/-- The documentation of `c*r`, lisp/l1.l1:22. -/
def k_cStarr_doc : Val := .nil

/-- `c*r`, lisp/l1.l1:22, as a function value. -/
def k_cStarr : Val := .lam ["path", "l"] "" k_cStarr_body k_cStarr_doc false 0

/-- The body of `if`, lisp/l1.l1:30. -/
def k_if_body : Val := vlist [vlist [.atom "syntax-quote", vlist [.atom "cond", vlist [vlist [.atom "unquote", .atom "condition"], vlist [.atom "unquote", .atom "then"]], vlist [.atom "t", vlist [.atom "unquote", .atom "else"]]]]]

/-- The documentation of `if`, lisp/l1.l1:30. -/
def k_if_doc : Val := (vlist [vlist [.atom "simple", .atom "conditional", .atom "with", .atom "two", .atom "branches"], vlist [.atom "examples", vlist [.atom "if", .atom "t", .num 111, .num 333], vlist [.atom "if", .nil, vlist [.atom "quote", .atom "abc"], vlist [.atom "quote", .atom "def"]]]])

/-- `if`, lisp/l1.l1:30, as a function value. -/
def k_if : Val := .lam ["condition", "then", "else"] "" k_if_body k_if_doc true 0

/-- The body of `if-not`, lisp/l1.l1:42. -/
def k_if_not_body : Val := vlist [vlist [.atom "syntax-quote", vlist [.atom "cond", vlist [vlist [.atom "not", vlist [.atom "unquote", .atom "condition"]], vlist [.atom "unquote", .atom "then"]], vlist [.atom "t", vlist [.atom "unquote", .atom "else"]]]]]

/-- The documentation of `if-not`, lisp/l1.l1:42. -/
def k_if_not_doc : Val := (vlist [vlist [.atom "simple", vlist [.atom "inverted"], .atom "conditional", .atom "with", .atom "two", .atom "branches"], vlist [.atom "examples", vlist [.atom "if-not", vlist [.atom "odd?", .num 3], vlist [.atom "quote", vlist [.atom "help,", .atom "they", .atom "broke", .atom "three"]], vlist [.atom "quote", vlist [.atom "three", .atom "is", .atom "odd"]]]]])

/-- `if-not`, lisp/l1.l1:42, as a function value. -/
def k_if_not : Val := .lam ["condition", "then", "else"] "" k_if_not_body k_if_not_doc true 0

/-- The body of `comment`, lisp/l1.l1:51. -/
def k_comment_body : Val := .nil

/-- The documentation of `comment`, lisp/l1.l1:51. -/
def k_comment_doc : Val := (vlist [vlist [.atom "ignore", .atom "the", .atom "expressions", .atom "in", .atom "the", .atom "block"], vlist [.atom "examples", vlist [.atom "comment", .atom "twas", .atom "brillig,", .atom "and", .atom "the", .atom "slithy", .atom "toves", .atom "did", .atom "gyre", .atom "and", .atom "gimble", .atom "in", .atom "the", .atom "wabe"]]])

/-- `comment`, lisp/l1.l1:51, as a function value. -/
def k_comment : Val := .lam [] "body" k_comment_body k_comment_doc true 0

/-- The body of `progn`, lisp/l1.l1:57. -/
def k_progn_body : Val := vlist [vlist [.atom "syntax-quote", vlist [.atom "let", .nil, vlist [.atom "splicing-unquote", .atom "body"]]]]

/-- The documentation of `progn`, lisp/l1.l1:57. -/
def k_progn_doc : Val := (vlist [vlist [.atom "execute", .atom "multiple", .atom "statements,", .atom "returning", .atom "the", .atom "last"], vlist [.atom "examples", vlist [.atom "progn"], vlist [.atom "progn", .num 1, .num 2, .num 3]]])

/-- `progn`, lisp/l1.l1:57, as a function value. -/
def k_progn : Val := .lam [] "body" k_progn_body k_progn_doc true 0

/-- The body of `when`, lisp/l1.l1:67. -/
def k_when_body : Val := vlist [vlist [.atom "syntax-quote", vlist [.atom "cond", vlist [vlist [.atom "unquote", .atom "condition"], vlist [.atom "progn", vlist [.atom "splicing-unquote", .atom "body"]]]]]]

/-- The documentation of `when`, lisp/l1.l1:67. -/
def k_when_doc : Val := (vlist [vlist [.atom "simple", .atom "conditional", .atom "with", .atom "single", .atom "branch"], vlist [.atom "examples", vlist [.atom "when", .nil, vlist [.atom "/", .num 1, .num 0]], vlist [.atom "when", .atom "t", vlist [.atom "quote", vlist [.atom "the", .atom "sun", .atom "rises", .atom "in", .atom "the", .atom "east"]]]]])

/-- `when`, lisp/l1.l1:67, as a function value. -/
def k_when : Val := .lam ["condition"] "body" k_when_body k_when_doc true 0

/-- The body of `when-not`, lisp/l1.l1:76. -/
def k_when_not_body : Val := vlist [vlist [.atom "syntax-quote", vlist [.atom "when", vlist [.atom "not", vlist [.atom "unquote", .atom "condition"]], vlist [.atom "splicing-unquote", .atom "body"]]]]

/-- The documentation of `when-not`, lisp/l1.l1:76. -/
def k_when_not_doc : Val := (vlist [vlist [.atom "complement", .atom "of", .atom "the", .atom "when", .atom "macro"], vlist [.atom "examples", vlist [.atom "when-not", .nil, vlist [.atom "quote", vlist [.atom "do", .atom "all", .atom "the", .atom "things"]]], vlist [.atom "when-not", .atom "t", vlist [.atom "error", vlist [.atom "quote", vlist [.atom "oh", .atom "no", .atom "mister", .atom "bill"]]]]]])

/-- `when-not`, lisp/l1.l1:76, as a function value. -/
def k_when_not : Val := .lam ["condition"] "body" k_when_not_body k_when_not_doc true 0

/-- The body of `foreach`, lisp/l1.l1:86. -/
def k_foreach_body : Val := vlist [vlist [.atom "syntax-quote", vlist [.atom "map", vlist [.atom "lambda", vlist [vlist [.atom "unquote", .atom "x"]], vlist [.atom "splicing-unquote", .atom "body"]], vlist [.atom "unquote", .atom "xs"]]]]

/-- The documentation of `foreach`, lisp/l1.l1:86. -/
def k_foreach_doc : Val := (vlist [vlist [.atom "execute", .atom "body", .atom "for", .atom "each", .atom "value", .atom "in", .atom "a", .atom "list"]])

/-- `foreach`, lisp/l1.l1:86, as a function value. -/
def k_foreach : Val := .lam ["x", "xs"] "body" k_foreach_body k_foreach_doc true 0

/-- The body of `reduce`, lisp/l1.l1:92. -/
def k_reduce_body : Val := vlist [vlist [.atom "let", vlist [vlist [.atom "inner", vlist [.atom "lambda", .atom "inner", vlist [.atom "f", .atom "acc", .atom "l"], vlist [.atom "if", vlist [.atom "not", .atom "l"], .atom "acc", vlist [.atom "inner", .atom "f", vlist [.atom "f", .atom "acc", vlist [.atom "car", .atom "l"]], vlist [.atom "cdr", .atom "l"]]]]]], vlist [.atom "cond", vlist [vlist [.atom "not", .atom "args"], vlist [.atom "if", vlist [.atom "not", .atom "x"], vlist [.atom "f"], vlist [.atom "inner", .atom "f", vlist [.atom "car", .atom "x"], vlist [.atom "cdr", .atom "x"]]]], vlist [vlist [.atom "=", vlist [.atom "len", .atom "args"], .num 1], vlist [.atom "inner", .atom "f", .atom "x", vlist [.atom "car", .atom "args"]]], vlist [.atom "t", vlist [.atom "error", vlist [.atom "quote", vlist [.atom "reduce", .atom "needs", .atom "at", .atom "least", .atom "two", .atom "arguments"]]]]]]]

/-- The documentation of `reduce`, lisp/l1.l1:92. -/
def k_reduce_doc : Val := (vlist [vlist [.atom "successively", .atom "apply", .atom "a", .atom "function", .atom "against", .atom "a", .atom "list", .atom "of", .atom "arguments"], vlist [.atom "examples", vlist [.atom "reduce", .atom "*", vlist [.atom "cdr", vlist [.atom "range", .num 10]]], vlist [.atom "reduce", vlist [.atom "lambda", vlist [.atom "acc", .atom "x"], vlist [.atom "cons", .atom "x", .atom "acc"]], .nil, vlist [.atom "range", .num 10]]]])

/-- `reduce`, lisp/l1.l1:92, as a function value. -/
def k_reduce : Val := .lam ["f", "x"] "args" k_reduce_body k_reduce_doc false 0

/-- The body of `concat`, lisp/l1.l1:115. -/
def k_concat_body : Val := vlist [vlist [.atom "let", vlist [vlist [.atom "concat2", vlist [.atom "lambda", .atom "concat2", vlist [.atom "a", .atom "b"], vlist [.atom "if", vlist [.atom "not", .atom "a"], .atom "b", vlist [.atom "cons", vlist [.atom "car", .atom "a"], vlist [.atom "concat2", vlist [.atom "cdr", .atom "a"], .atom "b"]]]]]], vlist [.atom "when", .atom "lists", vlist [.atom "reduce", .atom "concat2", .atom "lists"]]]]

/-- The documentation of `concat`, lisp/l1.l1:115. -/
def k_concat_doc : Val := (vlist [vlist [.atom "concatenenate", .atom "any", .atom "number", .atom "of", .atom "lists"], vlist [.atom "examples", vlist [.atom "concat", vlist [.atom "range", .num 3], vlist [.atom "quote", vlist [.atom "wow"]], vlist [.atom "reverse", vlist [.atom "range", .num 3]]]]])

/-- `concat`, lisp/l1.l1:115, as a function value. -/
def k_concat : Val := .lam [] "lists" k_concat_body k_concat_doc false 0

/-- The body of `reverse`, lisp/l1.l1:129. -/
def k_reverse_body : Val := vlist [vlist [.atom "when", .atom "l", vlist [.atom "concat", vlist [.atom "reverse", vlist [.atom "cdr", .atom "l"]], vlist [.atom "cons", vlist [.atom "car", .atom "l"], .nil]]]]

/-- The documentation of `reverse`, lisp/l1.l1:129. -/
def k_reverse_doc : Val := (vlist [vlist [.atom "reverse", .atom "a", .atom "list"], vlist [.atom "examples", vlist [.atom "=", vlist [.atom "quote", vlist [.atom "c", .atom "b", .atom "a"]], vlist [.atom "reverse", vlist [.atom "quote", vlist [.atom "a", .atom "b", .atom "c"]]]]]])

/-- `reverse`, lisp/l1.l1:129, as a function value. -/
def k_reverse : Val := .lam ["l"] "" k_reverse_body k_reverse_doc false 0

/-- The body of `zero?`, lisp/l1.l1:137. -/
def k_zeroP_body : Val := vlist [vlist [.atom "=", .atom "n", .num 0]]

/-- The documentation of `zero?`, lisp/l1.l1:137. -/
def k_zeroP_doc : Val := (vlist [vlist [.atom "return", .atom "true", .atom "iff", .atom "the", .atom "supplied", .atom "argument", .atom "is", .atom "zero"], vlist [.atom "examples", vlist [.atom "zero?", vlist [.atom "quote", .atom "zero"]], vlist [.atom "zero?", vlist [.atom "-", .num 1, .num 1]]]])

/-- `zero?`, lisp/l1.l1:137, as a function value. -/
def k_zeroP : Val := .lam ["n"] "" k_zeroP_body k_zeroP_doc false 0

/-- The body of `neg?`, lisp/l1.l1:144. -/
def k_negP_body : Val := vlist [vlist [.atom "<", .atom "n", .num 0]]

/-- The documentation of `neg?`, lisp/l1.l1:144. -/
def k_negP_doc : Val := (vlist [vlist [.atom "return", .atom "true", .atom "iff", .atom "the", .atom "supplied", .atom "integer", .atom "argument", .atom "is", .atom "less", .atom "than", .atom "zero"], vlist [.atom "examples", vlist [.atom "map", .atom "neg?", vlist [.atom "map", vlist [.atom "lambda", vlist [.atom "x"], vlist [.atom "-", .atom "x", .num 5]], vlist [.atom "range", .num 10]]]]])

/-- `neg?`, lisp/l1.l1:144, as a function value. -/
def k_negP : Val := .lam ["n"] "" k_negP_body k_negP_doc false 0

/-- The body of `juxt`, lisp/l1.l1:152. -/
def k_juxt_body : Val := vlist [vlist [.atom "lambda", vlist [.atom "x"], vlist [.atom "map", vlist [.atom "lambda", vlist [.atom "f"], vlist [.atom "f", .atom "x"]], .atom "fs"]]]

/-- The documentation of `juxt`, lisp/l1.l1:152. -/
def k_juxt_doc : Val := (vlist [vlist [.atom "create", .atom "a", .atom "function", .atom "which", .atom "combines", .atom "multiple", .atom "operations", .atom "into", .atom "a", .atom "single", .atom "list", .atom "of", .atom "results"], vlist [.atom "examples", vlist [vlist [.atom "juxt", .atom "inc", .atom "dec"], .num 0], vlist [.atom "map", vlist [.atom "juxt", .atom "inc", .atom "dec"], vlist [.atom "range", .num 3]], vlist [.atom "map", vlist [.atom "juxt", .atom "even?", .atom "odd?", .atom "zero?"], vlist [.atom "quote", vlist [.num (-2), .num (-1), .num 0, .num 1, .num 2]]], vlist [.atom "map", vlist [.atom "juxt"], vlist [.atom "range", .num 3]]]])

/-- `juxt`, lisp/l1.l1:152, as a function value. -/
def k_juxt : Val := .lam [] "fs" k_juxt_body k_juxt_doc false 0

/-- The body of `pos?`, lisp/l1.l1:166. -/
def k_posP_body : Val := vlist [vlist [.atom "<", .num 0, .atom "n"]]

/-- The documentation of `pos?`, lisp/l1.l1:166. -/
def k_posP_doc : Val := (vlist [vlist [.atom "return", .atom "true", .atom "iff", .atom "the", .atom "supplied", .atom "integer", .atom "argument", .atom "is", .atom "greater", .atom "than", .atom "zero"], vlist [.atom "examples", vlist [.atom "map", .atom "pos?", vlist [.atom "map", vlist [.atom "lambda", vlist [.atom "x"], vlist [.atom "-", .atom "x", .num 5]], vlist [.atom "range", .num 10]]]]])

/-- `pos?`, lisp/l1.l1:166, as a function value. -/
def k_posP : Val := .lam ["n"] "" k_posP_body k_posP_doc false 0

/-- The body of `inc`, lisp/l1.l1:174. -/
def k_inc_body : Val := vlist [vlist [.atom "+", .atom "n", .num 1]]

/-- The documentation of `inc`, lisp/l1.l1:174. -/
def k_inc_doc : Val := (vlist [vlist [.atom "return", .atom "the", .atom "supplied", .atom "integer", .atom "argument,", .atom "plus", .atom "one"]])

/-- `inc`, lisp/l1.l1:174, as a function value. -/
def k_inc : Val := .lam ["n"] "" k_inc_body k_inc_doc false 0

/-- The body of `dec`, lisp/l1.l1:178. -/
def k_dec_body : Val := vlist [vlist [.atom "-", .atom "n", .num 1]]

/-- The documentation of `dec`, lisp/l1.l1:178. -/
def k_dec_doc : Val := (vlist [vlist [.atom "return", .atom "the", .atom "supplied", .atom "integer", .atom "argument,", .atom "minus", .atom "one"], vlist [.atom "examples", vlist [.atom "dec", .num 2], vlist [.atom "dec", .num (-1)]]])

/-- `dec`, lisp/l1.l1:178, as a function value. -/
def k_dec : Val := .lam ["n"] "" k_dec_body k_dec_doc false 0

/-- The body of `range`, lisp/l1.l1:185. -/
def k_range_body : Val := vlist [vlist [.atom "when", vlist [.atom "pos?", .atom "n"], vlist [.atom "let", vlist [vlist [.atom "inner", vlist [.atom "lambda", .atom "inner", vlist [.atom "n"], vlist [.atom "if", vlist [.atom "=", .num 1, .atom "n"], vlist [.atom "cons", vlist [.atom "dec", .atom "n"], .nil], vlist [.atom "cons", vlist [.atom "dec", .atom "n"], vlist [.atom "inner", vlist [.atom "dec", .atom "n"]]]]]]], vlist [.atom "reverse", vlist [.atom "inner", .atom "n"]]]]]

/-- The documentation of `range`, lisp/l1.l1:185. -/
def k_range_doc : Val := .nil

/-- `range`, lisp/l1.l1:185, as a function value. -/
def k_range : Val := .lam ["n"] "" k_range_body k_range_doc false 0

/-- The body of `while`, lisp/l1.l1:193. -/
def k_while_body : Val := vlist [vlist [.atom "let", vlist [vlist [.atom "inner-sym", vlist [.atom "gensym", vlist [.atom "quote", .atom "inner"]]]], vlist [.atom "syntax-quote", vlist [.atom "let", vlist [vlist [vlist [.atom "unquote", .atom "inner-sym"], vlist [.atom "lambda", vlist [.atom "unquote", .atom "inner-sym"], .nil, vlist [.atom "when", vlist [.atom "unquote", .atom "condition"], vlist [.atom "splicing-unquote", .atom "body"], vlist [vlist [.atom "unquote", .atom "inner-sym"]]]]]], vlist [vlist [.atom "unquote", .atom "inner-sym"]]]]]]

/-- The documentation of `while`, lisp/l1.l1:193. -/
def k_while_doc : Val := (vlist [vlist [.atom "loop", .atom "for", .atom "as", .atom "long", .atom "as", .atom "condition", .atom "is", .atom "true"], vlist [.atom "examples", vlist [.atom "while", .nil, vlist [.atom "launch-missiles"]]]])

/-- `while`, lisp/l1.l1:193, as a function value. -/
def k_while : Val := .lam ["condition"] "body" k_while_body k_while_doc true 0

/-- The body of `range`, lisp/l1.l1:205. -/
def k_range'_body : Val := vlist [vlist [.atom "when", vlist [.atom "pos?", .atom "n"], vlist [.atom "let", vlist [vlist [.atom "c", .atom "n"], vlist [.atom "acc", .nil]], vlist [.atom "while", vlist [.atom "pos?", .atom "c"], vlist [.atom "set!", .atom "c", vlist [.atom "dec", .atom "c"]], vlist [.atom "set!", .atom "acc", vlist [.atom "cons", .atom "c", .atom "acc"]]], .atom "acc"]]]

/-- The documentation of `range`, lisp/l1.l1:205. -/
def k_range'_doc : Val := (vlist [vlist [.atom "list", .atom "of", .atom "integers", .atom "from", .num 0, .atom "to", .atom "n"], vlist [.atom "examples", vlist [.atom "range", .num 10], vlist [.atom "len", vlist [.atom "range", .num 100]]]])

/-- `range`, lisp/l1.l1:205, as a function value. -/
def k_range' : Val := .lam ["n"] "" k_range'_body k_range'_doc false 0

/-- The body of `nth`, lisp/l1.l1:218. -/
def k_nth_body : Val := vlist [vlist [.atom "cond", vlist [vlist [.atom "not", .atom "l"], .nil], vlist [vlist [.atom "zero?", .atom "n"], vlist [.atom "car", .atom "l"]], vlist [.atom "t", vlist [.atom "nth", vlist [.atom "dec", .atom "n"], vlist [.atom "cdr", .atom "l"]]]]]

/-- The documentation of `nth`, lisp/l1.l1:218. -/
def k_nth_doc : Val := (vlist [vlist [.atom "find", .atom "the", .atom "nth", .atom "value", .atom "of", .atom "a", .atom "list,", .atom "starting", .atom "from", .atom "zero"], vlist [.atom "examples", vlist [.atom "nth", .num 3, vlist [.atom "quote", vlist [.atom "one", .atom "two", .atom "three", .atom "four", .atom "five"]]], vlist [.atom "nth", .num 1000, vlist [.atom "range", .num 2]]]])

/-- `nth`, lisp/l1.l1:218, as a function value. -/
def k_nth : Val := .lam ["n", "l"] "" k_nth_body k_nth_doc false 0

/-- The body of `last`, lisp/l1.l1:228. -/
def k_last_body : Val := vlist [vlist [.atom "let", vlist [vlist [.atom "c", vlist [.atom "cdr", .atom "l"]]], vlist [.atom "if-not", .atom "c", vlist [.atom "car", .atom "l"], vlist [.atom "last", .atom "c"]]]]

/-- The documentation of `last`, lisp/l1.l1:228. -/
def k_last_doc : Val := (vlist [vlist [.atom "return", .atom "the", .atom "last", .atom "item", .atom "in", .atom "a", .atom "list"], vlist [.atom "examples", vlist [.atom "last", vlist [.atom "range", .num 10]], vlist [.atom "last", vlist [.atom "split", vlist [.atom "quote", .atom "ATOM!"]]]]])

/-- `last`, lisp/l1.l1:228, as a function value. -/
def k_last : Val := .lam ["l"] "" k_last_body k_last_doc false 0

/-- The body of `take`, lisp/l1.l1:238. -/
def k_take_body : Val := vlist [vlist [.atom "cond", vlist [vlist [.atom "zero?", .atom "n"], .nil], vlist [vlist [.atom "not", .atom "l"], .nil], vlist [.atom "t", vlist [.atom "cons", vlist [.atom "car", .atom "l"], vlist [.atom "take", vlist [.atom "dec", .atom "n"], vlist [.atom "cdr", .atom "l"]]]]]]

/-- The documentation of `take`, lisp/l1.l1:238. -/
def k_take_doc : Val := (vlist [vlist [.atom "take", .atom "up", .atom "to", .atom "n", .atom "items", .atom "from", .atom "the", .atom "supplied", .atom "list"], vlist [.atom "examples", vlist [.atom "take", .num 3, vlist [.atom "range", .num 10]]]])

/-- `take`, lisp/l1.l1:238, as a function value. -/
def k_take : Val := .lam ["n", "l"] "" k_take_body k_take_doc false 0

/-- The body of `drop`, lisp/l1.l1:246. -/
def k_drop_body : Val := vlist [vlist [.atom "cond", vlist [vlist [.atom "zero?", .atom "n"], .atom "l"], vlist [vlist [.atom "not", .atom "l"], .nil], vlist [.atom "t", vlist [.atom "drop", vlist [.atom "dec", .atom "n"], vlist [.atom "cdr", .atom "l"]]]]]

/-- The documentation of `drop`, lisp/l1.l1:246. -/
def k_drop_doc : Val := (vlist [vlist [.atom "drop", .atom "n", .atom "items", .atom "from", .atom "a", .atom "list,", .atom "then", .atom "return", .atom "the", .atom "rest"], vlist [.atom "examples", vlist [.atom "drop", .num 3, vlist [.atom "range", .num 10]]]])

/-- `drop`, lisp/l1.l1:246, as a function value. -/
def k_drop : Val := .lam ["n", "l"] "" k_drop_body k_drop_doc false 0

/-- The body of `complement`, lisp/l1.l1:255. -/
def k_complement_body : Val := vlist [vlist [.atom "lambda", vlist [.atom "x"], vlist [.atom "not", vlist [.atom "f", .atom "x"]]]]

/-- The documentation of `complement`, lisp/l1.l1:255. -/
def k_complement_doc : Val := (vlist [vlist [.atom "return", .atom "the", .atom "logical", .atom "complement", .atom "of", .atom "the", .atom "supplied", .atom "function"], vlist [.atom "examples", vlist [vlist [.atom "complement", .atom "even?"], .num 1], vlist [.atom "map", vlist [.atom "complement", .atom "odd?"], vlist [.atom "range", .num 5]]]])

/-- `complement`, lisp/l1.l1:255, as a function value. -/
def k_complement : Val := .lam ["f"] "" k_complement_body k_complement_doc false 0

/-- The body of `even?`, lisp/l1.l1:264. -/
def k_evenP_body : Val := vlist [vlist [.atom "zero?", vlist [.atom "rem", .atom "n", .num 2]]]

/-- The documentation of `even?`, lisp/l1.l1:264. -/
def k_evenP_doc : Val := (vlist [vlist [.atom "return", .atom "true", .atom "if", .atom "the", .atom "supplied", .atom "integer", .atom "argument", .atom "is", .atom "even"], vlist [.atom "examples", vlist [.atom "map", .atom "even?", vlist [.atom "range", .num 5]]]])

/-- `even?`, lisp/l1.l1:264, as a function value. -/
def k_evenP : Val := .lam ["n"] "" k_evenP_body k_evenP_doc false 0

/-- The body of `odd?`, lisp/l1.l1:270. -/
def k_oddP_body : Val := vlist [vlist [.atom "not", vlist [.atom "even?", .atom "n"]]]

/-- The documentation of `odd?`, lisp/l1.l1:270. -/
def k_oddP_doc : Val := (vlist [vlist [.atom "return", .atom "true", .atom "if", .atom "the", .atom "supplied", .atom "integer", .atom "argument", .atom "is", .atom "odd"], vlist [.atom "examples", vlist [.atom "map", .atom "even?", vlist [.atom "range", .num 5]]]])

/-- `odd?`, lisp/l1.l1:270, as a function value. -/
def k_oddP : Val := .lam ["n"] "" k_oddP_body k_oddP_doc false 0

/-- The body of `flatten`, lisp/l1.l1:276. -/
def k_flatten_body : Val := vlist [vlist [.atom "cond", vlist [vlist [.atom "not", .atom "l"], .nil], vlist [vlist [.atom "list?", .atom "l"], vlist [.atom "concat", vlist [.atom "flatten", vlist [.atom "car", .atom "l"]], vlist [.atom "flatten", vlist [.atom "cdr", .atom "l"]]]], vlist [.atom "t", vlist [.atom "list", .atom "l"]]]]

/-- The documentation of `flatten`, lisp/l1.l1:276. -/
def k_flatten_doc : Val := (vlist [vlist [.atom "return", .atom "a", vlist [.atom "possibly", .atom "nested"], .atom "list,", .atom "flattened"], vlist [.atom "examples", vlist [.atom "flatten", vlist [.atom "quote", vlist [.atom "this", .atom "is", .atom "a", vlist [.atom "really", vlist [.atom "nested"], .atom "list"]]]]]])

/-- `flatten`, lisp/l1.l1:276, as a function value. -/
def k_flatten : Val := .lam ["l"] "" k_flatten_body k_flatten_doc false 0

/-- The body of `constantly`, lisp/l1.l1:288. -/
def k_constantly_body : Val := vlist [vlist [.atom "lambda", mkList [.nil] (.atom "_"), .atom "x"]]

/-- The documentation of `constantly`, lisp/l1.l1:288. -/
def k_constantly_doc : Val := (vlist [vlist [.atom "given", .atom "a", .atom "value,", .atom "return", .atom "a", .atom "function", .atom "which", .atom "always", .atom "returns", .atom "that", .atom "value"], vlist [.atom "examples", vlist [.atom "map", vlist [.atom "constantly", .atom "t"], vlist [.atom "range", .num 10]]]])

/-- `constantly`, lisp/l1.l1:288, as a function value. -/
def k_constantly : Val := .lam ["x"] "" k_constantly_body k_constantly_doc false 0

/-- The body of `repeat`, lisp/l1.l1:298. -/
def k_repeat_body : Val := vlist [vlist [.atom "when", vlist [.atom "pos?", .atom "n"], vlist [.atom "cons", .atom "x", vlist [.atom "repeat", vlist [.atom "dec", .atom "n"], .atom "x"]]]]

/-- The documentation of `repeat`, lisp/l1.l1:298. -/
def k_repeat_doc : Val := (vlist [vlist [.atom "return", .atom "a", .atom "list", .atom "of", .atom "length", .atom "n", .atom "whose", .atom "elements", .atom "are", .atom "all", .atom "x"], vlist [.atom "examples", vlist [.atom "repeat", .num 5, vlist [.atom "quote", .atom "repetitive"]]]])

/-- `repeat`, lisp/l1.l1:298, as a function value. -/
def k_repeat : Val := .lam ["n", "x"] "" k_repeat_body k_repeat_doc false 0

/-- The body of `repeatedly`, lisp/l1.l1:305. -/
def k_repeatedly_body : Val := vlist [vlist [.atom "when-not", vlist [.atom "zero?", .atom "n"], vlist [.atom "cons", vlist [.atom "f"], vlist [.atom "repeatedly", vlist [.atom "dec", .atom "n"], .atom "f"]]]]

/-- The documentation of `repeatedly`, lisp/l1.l1:305. -/
def k_repeatedly_doc : Val := (vlist [vlist [.atom "return", .atom "a", .atom "list", .atom "of", .atom "length", .atom "n", .atom "whose", .atom "elements", .atom "are", .atom "made", .atom "from", .atom "calling", .atom "f", .atom "repeatedly"], vlist [.atom "examples", vlist [.atom "repeatedly", .num 3, vlist [.atom "lambda", .nil, vlist [.atom "range", .num 5]]]]])

/-- `repeatedly`, lisp/l1.l1:305, as a function value. -/
def k_repeatedly : Val := .lam ["n", "f"] "" k_repeatedly_body k_repeatedly_doc false 0

/-- The body of `true?`, lisp/l1.l1:312. -/
def k_trueP_body : Val := vlist [vlist [.atom "=", .atom "x", .atom "t"]]

/-- The documentation of `true?`, lisp/l1.l1:312. -/
def k_trueP_doc : Val := (vlist [vlist [.atom "return", .atom "t", .atom "if", .atom "the", .atom "argument", .atom "is", .atom "t"], vlist [.atom "examples", vlist [.atom "true?", .num 3], vlist [.atom "true?", .atom "t"]]])

/-- `true?`, lisp/l1.l1:312, as a function value. -/
def k_trueP : Val := .lam ["x"] "" k_trueP_body k_trueP_doc false 0

/-- The body of `map`, lisp/l1.l1:319. -/
def k_map_body : Val := vlist [vlist [.atom "when", .atom "l", vlist [.atom "cons", vlist [.atom "f", vlist [.atom "car", .atom "l"]], vlist [.atom "map", .atom "f", vlist [.atom "cdr", .atom "l"]]]]]

/-- The documentation of `map`, lisp/l1.l1:319. -/
def k_map_doc : Val := (vlist [vlist [.atom "apply", .atom "the", .atom "supplied", .atom "function", .atom "to", .atom "every", .atom "element", .atom "in", .atom "the", .atom "supplied", .atom "list"], vlist [.atom "examples", vlist [.atom "map", .atom "odd?", vlist [.atom "range", .num 5]], vlist [.atom "map", .atom "true?", vlist [.atom "quote", vlist [.atom "foo", .atom "t", .nil, .atom "t", .num 3]]]]])

/-- `map`, lisp/l1.l1:319, as a function value. -/
def k_map : Val := .lam ["f", "l"] "" k_map_body k_map_doc false 0

/-- The body of `mapcat`, lisp/l1.l1:328. -/
def k_mapcat_body : Val := vlist [vlist [.atom "reduce", .atom "concat", vlist [.atom "map", .atom "f", .atom "l"]]]

/-- The documentation of `mapcat`, lisp/l1.l1:328. -/
def k_mapcat_doc : Val := (vlist [vlist [.atom "map", .atom "a", .atom "function", .atom "onto", .atom "a", .atom "list", .atom "and", .atom "concatenate", .atom "results"], vlist [.atom "examples", vlist [.atom "map", .atom "list", vlist [.atom "range", .num 5]], vlist [.atom "mapcat", .atom "list", vlist [.atom "range", .num 5]], vlist [.atom "map", .atom "range", vlist [.atom "range", .num 5]], vlist [.atom "mapcat", .atom "range", vlist [.atom "range", .num 5]]]])

/-- `mapcat`, lisp/l1.l1:328, as a function value. -/
def k_mapcat : Val := .lam ["f", "l"] "" k_mapcat_body k_mapcat_doc false 0

/-- The body of `filter`, lisp/l1.l1:337. -/
def k_filter_body : Val := vlist [vlist [.atom "cond", vlist [vlist [.atom "not", .atom "l"], .nil], vlist [vlist [.atom "f", vlist [.atom "car", .atom "l"]], vlist [.atom "cons", vlist [.atom "car", .atom "l"], vlist [.atom "filter", .atom "f", vlist [.atom "cdr", .atom "l"]]]], vlist [.atom "t", vlist [.atom "filter", .atom "f", vlist [.atom "cdr", .atom "l"]]]]]

/-- The documentation of `filter`, lisp/l1.l1:337. -/
def k_filter_doc : Val := (vlist [vlist [.atom "keep", .atom "only", .atom "values", .atom "for", .atom "which", .atom "function", .atom "f", .atom "is", .atom "true"], vlist [.atom "examples", vlist [.atom "filter", .atom "odd?", vlist [.atom "range", .num 5]]]])

/-- `filter`, lisp/l1.l1:337, as a function value. -/
def k_filter : Val := .lam ["f", "l"] "" k_filter_body k_filter_doc false 0

/-- The body of `remove`, lisp/l1.l1:346. -/
def k_remove_body : Val := vlist [vlist [.atom "filter", vlist [.atom "complement", .atom "f"], .atom "l"]]

/-- The documentation of `remove`, lisp/l1.l1:346. -/
def k_remove_doc : Val := (vlist [vlist [.atom "keep", .atom "only", .atom "values", .atom "for", .atom "which", .atom "function", .atom "f", .atom "is", .atom "false", .atom "/", .atom "the", .atom "empty", .atom "list"], vlist [.atom "examples", vlist [.atom "remove", .atom "odd?", vlist [.atom "range", .num 5]]]])

/-- `remove`, lisp/l1.l1:346, as a function value. -/
def k_remove : Val := .lam ["f", "l"] "" k_remove_body k_remove_doc false 0

/-- The body of `**`, lisp/l1.l1:352. -/
def k_StarStar_body : Val := vlist [vlist [.atom "if", vlist [.atom "zero?", .atom "m"], .num 1, vlist [.atom "*", .atom "n", vlist [.atom "**", .atom "n", vlist [.atom "dec", .atom "m"]]]]]

/-- The documentation of `**`, lisp/l1.l1:352. -/
def k_StarStar_doc : Val := (vlist [vlist [.atom "exponentiation", .atom "operator"], vlist [.atom "examples", vlist [.atom "**", .num 1, .num 0], vlist [.atom "**", .num 2, .num 4], vlist [.atom "**", .num 10, .num 10]]])

/-- `**`, lisp/l1.l1:352, as a function value. -/
def k_StarStar : Val := .lam ["n", "m"] "" k_StarStar_body k_StarStar_doc false 0

/-- The body of `capitalize`, lisp/l1.l1:362. -/
def k_capitalize_body : Val := vlist [vlist [.atom "let", vlist [vlist [.atom "s", vlist [.atom "split", .atom "a"]]], vlist [.atom "fuse", vlist [.atom "concat", vlist [.atom "map", .atom "upcase", vlist [.atom "take", .num 1, .atom "s"]], vlist [.atom "drop", .num 1, .atom "s"]]]]]

/-- The documentation of `capitalize`, lisp/l1.l1:362. -/
def k_capitalize_doc : Val := (vlist [vlist [.atom "return", .atom "the", .atom "atom", .atom "argument,", .atom "capitalized"], vlist [.atom "examples", vlist [.atom "capitalize", vlist [.atom "quote", .atom "hello"]]]])

/-- `capitalize`, lisp/l1.l1:362, as a function value. -/
def k_capitalize : Val := .lam ["a"] "" k_capitalize_body k_capitalize_doc false 0

/-- The body of `randigits`, lisp/l1.l1:370. -/
def k_randigits_body : Val := vlist [vlist [.atom "repeatedly", .atom "n", vlist [.atom "lambda", .nil, vlist [.atom "randint", .num 10]]]]

/-- The documentation of `randigits`, lisp/l1.l1:370. -/
def k_randigits_doc : Val := (vlist [vlist [.atom "return", .atom "a", .atom "random", .atom "integer", .atom "between", .num 0, .atom "and", .atom "the", .atom "argument", .atom "minus", .num 1]])

/-- `randigits`, lisp/l1.l1:370, as a function value. -/
def k_randigits : Val := .lam ["n"] "" k_randigits_body k_randigits_doc false 0

/-- The body of `randchoice`, lisp/l1.l1:375. -/
def k_randchoice_body : Val := vlist [vlist [.atom "when-not", .atom "l", vlist [.atom "error", vlist [.atom "quote", vlist [.atom "randchoice", .atom "expects", .atom "a", .atom "nonempty", .atom "list"]]]], vlist [.atom "nth", vlist [.atom "randint", vlist [.atom "len", .atom "l"]], .atom "l"]]

/-- The documentation of `randchoice`, lisp/l1.l1:375. -/
def k_randchoice_doc : Val := (vlist [vlist [.atom "return", .atom "an", .atom "element", .atom "at", .atom "random", .atom "from", .atom "the", .atom "supplied", .atom "list"]])

/-- `randchoice`, lisp/l1.l1:375, as a function value. -/
def k_randchoice : Val := .lam ["l"] "" k_randchoice_body k_randchoice_doc false 0

/-- The body of `randalpha`, lisp/l1.l1:381. -/
def k_randalpha_body : Val := vlist [vlist [.atom "repeatedly", .atom "n", vlist [.atom "lambda", .nil, vlist [.atom "randchoice", vlist [.atom "split", vlist [.atom "quote", .atom "abcdefghijklmnopqrstuvwxyz"]]]]]]

/-- The documentation of `randalpha`, lisp/l1.l1:381. -/
def k_randalpha_doc : Val := (vlist [vlist [.atom "return", .atom "a", .atom "list", .atom "of", .atom "random", vlist [.atom "English/Latin/unaccented"], .atom "lower-case", .atom "alphabetic", .atom "characters"]])

/-- `randalpha`, lisp/l1.l1:381, as a function value. -/
def k_randalpha : Val := .lam ["n"] "" k_randalpha_body k_randalpha_doc false 0

/-- The body of `dotimes`, lisp/l1.l1:388. -/
def k_dotimes_body : Val := vlist [vlist [.atom "let", vlist [vlist [.atom "inner-sym", vlist [.atom "gensym"]], vlist [.atom "n-sym", vlist [.atom "gensym"]]], vlist [.atom "syntax-quote", vlist [.atom "let", vlist [vlist [vlist [.atom "unquote", .atom "n-sym"], vlist [.atom "unquote", .atom "n"]]], vlist [.atom "when-not", vlist [.atom "neg?", vlist [.atom "unquote", .atom "n-sym"]], vlist [.atom "let", vlist [vlist [vlist [.atom "unquote", .atom "inner-sym"], vlist [.atom "lambda", vlist [.atom "unquote", .atom "inner-sym"], vlist [.atom "count"], vlist [.atom "when-not", vlist [.atom "zero?", .atom "count"], vlist [.atom "splicing-unquote", .atom "body"], vlist [vlist [.atom "unquote", .atom "inner-sym"], vlist [.atom "-", .atom "count", .num 1]]]]]], vlist [vlist [.atom "unquote", .atom "inner-sym"], vlist [.atom "unquote", .atom "n-sym"]]]]]]]]

/-- The documentation of `dotimes`, lisp/l1.l1:388. -/
def k_dotimes_doc : Val := (vlist [vlist [.atom "execute", .atom "body", .atom "for", .atom "each", .atom "value", .atom "in", .atom "a", .atom "list"]])

/-- `dotimes`, lisp/l1.l1:388, as a function value. -/
def k_dotimes : Val := .lam ["n"] "body" k_dotimes_body k_dotimes_doc true 0

/-- The body of `butlast`, lisp/l1.l1:400. -/
def k_butlast_body : Val := vlist [vlist [.atom "take", vlist [.atom "dec", vlist [.atom "len", .atom "l"]], .atom "l"]]

/-- The documentation of `butlast`, lisp/l1.l1:400. -/
def k_butlast_doc : Val := (vlist [vlist [.atom "return", .atom "everything", .atom "but", .atom "the", .atom "last", .atom "element"], vlist [.atom "examples", vlist [.atom "butlast", .nil], vlist [.atom "butlast", vlist [.atom "range", .num 3]]]])

/-- `butlast`, lisp/l1.l1:400, as a function value. -/
def k_butlast : Val := .lam ["l"] "" k_butlast_body k_butlast_doc false 0

/-- The body of `punctuate`, lisp/l1.l1:407. -/
def k_punctuate_body : Val := vlist [vlist [.atom "cond", vlist [vlist [.atom "not", .atom "x"], .atom "x"], vlist [vlist [.atom "=", vlist [.atom "len", .atom "x"], .num 1], vlist [.atom "list", vlist [.atom "capitalize", vlist [.atom "f", vlist [.atom "car", .atom "x"]]]]], vlist [.atom "t", vlist [.atom "cons", vlist [.atom "capitalize", vlist [.atom "car", .atom "x"]], vlist [.atom "concat", vlist [.atom "cdr", vlist [.atom "butlast", .atom "x"]], vlist [.atom "list", vlist [.atom "f", vlist [.atom "last", .atom "x"]]]]]]]]

/-- The documentation of `punctuate`, lisp/l1.l1:407. -/
def k_punctuate_doc : Val := (vlist [vlist [.atom "return", .atom "x", .atom "capitalized,", .atom "with", .atom "punctuation", .atom "determined", .atom "by", .atom "the", .atom "supplied", .atom "function"]])

/-- `punctuate`, lisp/l1.l1:407, as a function value. -/
def k_punctuate : Val := .lam ["f", "x"] "" k_punctuate_body k_punctuate_doc false 0

/-- The body of `tosentence`, lisp/l1.l1:415. -/
def k_tosentence_body : Val := vlist [vlist [.atom "punctuate", .atom "period", .atom "l"]]

/-- The documentation of `tosentence`, lisp/l1.l1:415. -/
def k_tosentence_doc : Val := (vlist [vlist [.atom "return", .atom "l", .atom "as", .atom "a", .atom "sentence...", .atom "capitalized,", .atom "with", .atom "a", .atom "period", .atom "at", .atom "the", .atom "end"], vlist [.atom "examples", vlist [.atom "tosentence", vlist [.atom "quote", vlist [.atom "to", .atom "be,", .atom "or", .atom "not", .atom "to", .atom "be,", .atom "that", .atom "is", .atom "the", .atom "question"]]]]])

/-- `tosentence`, lisp/l1.l1:415, as a function value. -/
def k_tosentence : Val := .lam ["l"] "" k_tosentence_body k_tosentence_doc false 0

/-- The body of `exclaim`, lisp/l1.l1:421. -/
def k_exclaim_body : Val := vlist [vlist [.atom "punctuate", .atom "bang", .atom "l"]]

/-- The documentation of `exclaim`, lisp/l1.l1:421. -/
def k_exclaim_doc : Val := (vlist [vlist [.atom "return", .atom "l", .atom "as", .atom "a", .atom "sentence...", .atom "emphasized!"], vlist [.atom "examples", vlist [.atom "exclaim", vlist [.atom "quote", vlist [.atom "well,", .atom "hello"]]], vlist [.atom "exclaim", vlist [.atom "quote", vlist [.atom "help"]]], vlist [.atom "exclaim", vlist [.atom "quote", vlist [.atom "begone,", .atom "fiend"]]]]])

/-- `exclaim`, lisp/l1.l1:421, as a function value. -/
def k_exclaim : Val := .lam ["l"] "" k_exclaim_body k_exclaim_doc false 0

/-- The body of `list*`, lisp/l1.l1:429. -/
def k_listStar_body : Val := vlist [vlist [.atom "when", .atom "args", vlist [.atom "let", vlist [vlist [.atom "endl", vlist [.atom "last", .atom "args"]], vlist [.atom "other", vlist [.atom "butlast", .atom "args"]]], vlist [.atom "concat", .atom "other", .atom "endl"]]]]

/-- The documentation of `list*`, lisp/l1.l1:429. -/
def k_listStar_doc : Val := (vlist [vlist [.atom "create", .atom "a", .atom "list", .atom "by", .atom "consing", .atom "everything", .atom "but", .atom "the", .atom "last", .atom "arg", .atom "onto", .atom "the", .atom "last"], vlist [.atom "examples", vlist [.atom "list*", .num 1, .num 2, vlist [.atom "quote", vlist [.num 3]]], vlist [.atom "list*", .num 1, .num 2, vlist [.atom "quote", vlist [.num 3, .num 4]]], vlist [.atom "list*"]]])

/-- `list*`, lisp/l1.l1:429, as a function value. -/
def k_listStar : Val := .lam [] "args" k_listStar_body k_listStar_doc false 0

/-- The body of `with-screen`, lisp/l1.l1:440. -/
def k_with_screen_body : Val := vlist [vlist [.atom "syntax-quote", vlist [.atom "progn", vlist [.atom "screen-start"], vlist [.atom "let", vlist [vlist [.atom "result", vlist [.atom "progn", vlist [.atom "splicing-unquote", .atom "body"]]]], vlist [.atom "screen-end"], .atom "result"]]]]

/-- The documentation of `with-screen`, lisp/l1.l1:440. -/
def k_with_screen_doc : Val := (vlist [vlist [.atom "prepare", .atom "for", .atom "and", .atom "clean", .atom "up", .atom "after", .atom "screen", .atom "operations"]])

/-- `with-screen`, lisp/l1.l1:440, as a function value. -/
def k_with_screen : Val := .lam [] "body" k_with_screen_body k_with_screen_doc true 0

/-- The body of `some`, lisp/l1.l1:449. -/
def k_some_body : Val := vlist [vlist [.atom "when", .atom "l", vlist [.atom "let", vlist [vlist [.atom "result", vlist [.atom "f", vlist [.atom "car", .atom "l"]]]], vlist [.atom "if", .atom "result", .atom "result", vlist [.atom "some", .atom "f", vlist [.atom "cdr", .atom "l"]]]]]]

/-- The documentation of `some`, lisp/l1.l1:449. -/
def k_some_doc : Val := (vlist [vlist [.atom "return", .atom "f", .atom "applied", .atom "to", .atom "first", .atom "element", .atom "for", .atom "which", .atom "that", .atom "result", .atom "is", .atom "truthy,", .atom "else", .nil], vlist [.atom "examples", vlist [.atom "some", .atom "even?", vlist [.atom "quote", vlist [.num 1, .num 3, .num 5, .num 7, .num 9, .num 11, .num 13]]], vlist [.atom "some", .atom "even?", vlist [.atom "quote", vlist [.num 1, .num 3, .num 5, .num 7, .num 9, .num 1000, .num 11, .num 13]]]]])

/-- `some`, lisp/l1.l1:449, as a function value. -/
def k_some : Val := .lam ["f", "l"] "" k_some_body k_some_doc false 0

/-- The body of `every`, lisp/l1.l1:460. -/
def k_every_body : Val := vlist [vlist [.atom "if-not", .atom "l", .atom "t", vlist [.atom "let", vlist [vlist [.atom "result", vlist [.atom "f", vlist [.atom "car", .atom "l"]]]], vlist [.atom "if", vlist [.atom "not", .atom "result"], .nil, vlist [.atom "every", .atom "f", vlist [.atom "cdr", .atom "l"]]]]]]

/-- The documentation of `every`, lisp/l1.l1:460. -/
def k_every_doc : Val := (vlist [vlist [.atom "return", .atom "t", .atom "if", .atom "f", .atom "applied", .atom "to", .atom "every", .atom "element", .atom "in", .atom "l", .atom "is", .atom "truthy,", .atom "else", .nil], vlist [.atom "examples", vlist [.atom "every", .atom "odd?", vlist [.atom "quote", vlist [.num 1, .num 3, .num 5]]], vlist [.atom "every", .atom "odd?", vlist [.atom "quote", vlist [.num 1, .num 2, .num 3, .num 5]]]]])

/-- `every`, lisp/l1.l1:460, as a function value. -/
def k_every : Val := .lam ["f", "l"] "" k_every_body k_every_doc false 0

/-- The body of `punctuate-atom`, lisp/l1.l1:472. -/
def k_punctuate_atom_body : Val := vlist [vlist [.atom "let", vlist [vlist [.atom "l", vlist [.atom "split", .atom "a"]]], vlist [.atom "fuse", vlist [.atom "concat", .atom "l", vlist [.atom "list", .atom "mark"]]]]]

/-- The documentation of `punctuate-atom`, lisp/l1.l1:472. -/
def k_punctuate_atom_doc : Val := (vlist [vlist [.atom "add", .atom "a", .atom "punctuation", .atom "mark", .atom "at", .atom "end", .atom "of", .atom "atom"], vlist [.atom "examples", vlist [.atom "punctuate-atom", vlist [.atom "quote", .atom "list"], vlist [.atom "quote", .atom "*"]], vlist [.atom "punctuate-atom", vlist [.atom "quote", .atom "list"], .atom "COLON"]]])

/-- `punctuate-atom`, lisp/l1.l1:472, as a function value. -/
def k_punctuate_atom : Val := .lam ["a", "mark"] "" k_punctuate_atom_body k_punctuate_atom_doc false 0

/-- The body of `bang`, lisp/l1.l1:480. -/
def k_bang_body : Val := vlist [vlist [.atom "punctuate-atom", .atom "a", .atom "BANG"]]

/-- The documentation of `bang`, lisp/l1.l1:480. -/
def k_bang_doc : Val := (vlist [vlist [.atom "add", .atom "an", .atom "exclamation", .atom "point", .atom "at", .atom "end", .atom "of", .atom "atom"], vlist [.atom "examples", vlist [.atom "bang", vlist [.atom "quote", .atom "Bang"]]]])

/-- `bang`, lisp/l1.l1:480, as a function value. -/
def k_bang : Val := .lam ["a"] "" k_bang_body k_bang_doc false 0

/-- The body of `comma`, lisp/l1.l1:486. -/
def k_comma_body : Val := vlist [vlist [.atom "punctuate-atom", .atom "a", .atom "COMMA"]]

/-- The documentation of `comma`, lisp/l1.l1:486. -/
def k_comma_doc : Val := (vlist [vlist [.atom "add", .atom "a", .atom "comma", .atom "at", .atom "end", .atom "of", .atom "atom"], vlist [.atom "examples", vlist [.atom "comma", vlist [.atom "quote", .atom "hello"]]]])

/-- `comma`, lisp/l1.l1:486, as a function value. -/
def k_comma : Val := .lam ["a"] "" k_comma_body k_comma_doc false 0

/-- The body of `period`, lisp/l1.l1:492. -/
def k_period_body : Val := vlist [vlist [.atom "punctuate-atom", .atom "a", .atom "PERIOD"]]

/-- The documentation of `period`, lisp/l1.l1:492. -/
def k_period_doc : Val := (vlist [vlist [.atom "add", .atom "a", .atom "period", .atom "at", .atom "end", .atom "of", .atom "atom"], vlist [.atom "examples", vlist [.atom "period", vlist [.atom "quote", .atom "Woot"]]]])

/-- `period`, lisp/l1.l1:492, as a function value. -/
def k_period : Val := .lam ["a"] "" k_period_body k_period_doc false 0

/-- The body of `colon`, lisp/l1.l1:498. -/
def k_colon_body : Val := vlist [vlist [.atom "punctuate-atom", .atom "a", .atom "COLON"]]

/-- The documentation of `colon`, lisp/l1.l1:498. -/
def k_colon_doc : Val := (vlist [vlist [.atom "add", .atom "a", .atom "colon", .atom "at", .atom "end", .atom "of", .atom "atom"], vlist [.atom "examples", vlist [.atom "colon", vlist [.atom "quote", .atom "remember-this"]]]])

/-- `colon`, lisp/l1.l1:498, as a function value. -/
def k_colon : Val := .lam ["a"] "" k_colon_body k_colon_doc false 0

/-- The body of `is`, lisp/l1.l1:504. -/
def k_is_body : Val := vlist [vlist [.atom "cond", vlist [vlist [.atom "or", vlist [.atom "not", vlist [.atom "list?", .atom "condition"]], vlist [.atom "not", vlist [.atom "=", vlist [.atom "quote", .atom "="], vlist [.atom "car", .atom "condition"]]], vlist [.atom "not", vlist [.atom "=", .num 3, vlist [.atom "len", .atom "condition"]]]], vlist [.atom "let", vlist [vlist [.atom "result", vlist [.atom "gensym", vlist [.atom "quote", .atom "result"]]]], vlist [.atom "syntax-quote", vlist [.atom "let", vlist [vlist [vlist [.atom "unquote", .atom "result"], vlist [.atom "unquote", .atom "condition"]]], vlist [.atom "when-not", vlist [.atom "unquote", .atom "result"], vlist [.atom "error", vlist [.atom "quote", vlist [.atom "assertion", vlist [.atom "unquote", vlist [.atom "fuse", vlist [.atom "list", vlist [.atom "quote", .atom "failed"], .atom "COLON"]]], vlist [.atom "unquote", .atom "condition"]]]]]]]]], vlist [.atom "t", vlist [.atom "let", vlist [vlist [.atom "lhs", vlist [.atom "nth", .num 1, .atom "condition"]], vlist [.atom "rhs", vlist [.atom "nth", .num 2, .atom "condition"]], vlist [.atom "lhsym", vlist [.atom "gensym", vlist [.atom "quote", .atom "lhs"]]], vlist [.atom "rhsym", vlist [.atom "gensym", vlist [.atom "quote", .atom "rhs"]]]], vlist [.atom "syntax-quote", vlist [.atom "let", vlist [vlist [vlist [.atom "unquote", .atom "lhsym"], vlist [.atom "unquote", .atom "lhs"]], vlist [vlist [.atom "unquote", .atom "rhsym"], vlist [.atom "unquote", .atom "rhs"]]], vlist [.atom "when-not", vlist [.atom "=", vlist [.atom "unquote", .atom "lhsym"], vlist [.atom "unquote", .atom "rhsym"]], vlist [.atom "error", vlist [.atom "concat", vlist [.atom "list", vlist [.atom "quote", .atom "expression"], vlist [.atom "quote", vlist [.atom "unquote", .atom "lhs"]], vlist [.atom "quote", .atom "==>"], vlist [.atom "unquote", .atom "lhsym"]], vlist [.atom "quote", vlist [.atom "is", .atom "not", .atom "equal", .atom "to"]], vlist [.atom "list", vlist [.atom "quote", .atom "expression"], vlist [.atom "quote", vlist [.atom "unquote", .atom "rhs"]], vlist [.atom "quote", .atom "==>"], vlist [.atom "unquote", .atom "rhsym"]]]]]]]]]]]

/-- The documentation of `is`, lisp/l1.l1:504. -/
def k_is_doc : Val := (vlist [vlist [.atom "assert", .atom "a", .atom "condition", .atom "is", .atom "truthy,", .atom "or", .atom "show", .atom "failing", .atom "code"], vlist [.atom "examples", vlist [.atom "is", .atom "t"], vlist [.atom "is", vlist [.atom "car", vlist [.atom "cons", .nil, vlist [.atom "quote", vlist [.atom "this", .atom "one", .atom "should", .atom "fail"]]]]]]])

/-- `is`, lisp/l1.l1:504, as a function value. -/
def k_is : Val := .lam ["condition"] "" k_is_body k_is_doc true 0

/-- The body of `let*`, lisp/l1.l1:539. -/
def k_letStar_body : Val := vlist [vlist [.atom "if-not", .atom "pairs", vlist [.atom "list*", vlist [.atom "quote", .atom "progn"], .atom "body"], vlist [.atom "syntax-quote", vlist [.atom "let", vlist [vlist [.atom "unquote", vlist [.atom "car", .atom "pairs"]]], vlist [.atom "let*", vlist [vlist [.atom "splicing-unquote", vlist [.atom "cdr", .atom "pairs"]]], vlist [.atom "splicing-unquote", .atom "body"]]]]]]

/-- The documentation of `let*`, lisp/l1.l1:539. -/
def k_letStar_doc : Val := (vlist [vlist [.atom "let", .atom "form", .atom "with", .atom "ability", .atom "to", .atom "refer", .atom "to", .atom "previously-bound", .atom "pairs", .atom "in", .atom "the", .atom "binding", .atom "list"], vlist [.atom "examples", vlist [.atom "let*", vlist [vlist [.atom "a", .num 1], vlist [.atom "b", vlist [.atom "inc", .atom "a"]]], vlist [.atom "+", .atom "a", .atom "b"]]]])

/-- `let*`, lisp/l1.l1:539, as a function value. -/
def k_letStar : Val := .lam ["pairs"] "body" k_letStar_body k_letStar_doc true 0

/-- The body of `second`, lisp/l1.l1:553. -/
def k_second_body : Val := vlist [vlist [.atom "car", vlist [.atom "cdr", .atom "l"]]]

/-- The documentation of `second`, lisp/l1.l1:553. -/
def k_second_doc : Val := (vlist [vlist [.atom "return", .atom "the", .atom "second", .atom "element", .atom "of", .atom "a", .atom "list,", .atom "or", .nil, .atom "if", .atom "not", .atom "enough", .atom "elements"], vlist [.atom "examples", vlist [.atom "second", .nil], vlist [.atom "second", vlist [.atom "quote", vlist [.atom "a"]]], vlist [.atom "second", vlist [.atom "quote", vlist [.atom "a", .atom "b"]]], vlist [.atom "second", vlist [.atom "quote", vlist [.num 1, .num 2, .num 3]]]]])

/-- `second`, lisp/l1.l1:553, as a function value. -/
def k_second : Val := .lam ["l"] "" k_second_body k_second_doc false 0

/-- The body of `comp`, lisp/l1.l1:563. -/
def k_comp_body : Val := vlist [vlist [.atom "let", vlist [vlist [.atom "n", vlist [.atom "len", .atom "fs"]], vlist [.atom "f", vlist [.atom "car", .atom "fs"]], vlist [.atom "g", vlist [.atom "second", .atom "fs"]]], vlist [.atom "cond", vlist [vlist [.atom "zero?", .atom "n"], .atom "identity"], vlist [vlist [.atom "=", .atom "n", .num 1], .atom "f"], vlist [vlist [.atom "=", .atom "n", .num 2], vlist [.atom "lambda", mkList [.nil] (.atom "xs"), vlist [.atom "f", vlist [.atom "apply", .atom "g", .atom "xs"]]]], vlist [.atom "t", vlist [.atom "reduce", .atom "comp", vlist [.atom "list*", .atom "f", .atom "g", vlist [.atom "cdr", vlist [.atom "cdr", .atom "fs"]]]]]]]]

/-- The documentation of `comp`, lisp/l1.l1:563. -/
def k_comp_doc : Val := (vlist [vlist [.atom "function", .atom "composition", .atom "--", .atom "return", .atom "a", .atom "function", .atom "which", .atom "applies", .atom "a", .atom "series", .atom "of", .atom "functions", .atom "in", .atom "reverse", .atom "order"], vlist [.atom "examples", vlist [vlist [.atom "comp"], vlist [.atom "quote", .atom "hello"]], vlist [vlist [.atom "comp", .atom "split"], vlist [.atom "quote", .atom "hello"]], vlist [vlist [.atom "comp", .atom "len", .atom "split"], vlist [.atom "quote", .atom "hello"]], vlist [vlist [.atom "comp", vlist [.atom "partial", .atom "apply", .atom "+"], vlist [.atom "partial", .atom "map", .atom "len"], vlist [.atom "partial", .atom "map", .atom "split"]], vlist [.atom "quote", vlist [.atom "hello", .atom "world"]]]]])

/-- `comp`, lisp/l1.l1:563, as a function value. -/
def k_comp : Val := .lam [] "fs" k_comp_body k_comp_doc false 0

/-- The body of `partial`, lisp/l1.l1:583. -/
def k_partial_body : Val := vlist [vlist [.atom "lambda", mkList [.nil] (.atom "more"), vlist [.atom "apply", .atom "f", vlist [.atom "concat", .atom "args", .atom "more"]]]]

/-- The documentation of `partial`, lisp/l1.l1:583. -/
def k_partial_doc : Val := (vlist [vlist [.atom "partial", .atom "function", .atom "application"], vlist [.atom "return", .atom "a", .atom "new", .atom "function", .atom "which", .atom "wraps", .atom "the", .atom "supplied", .atom "arguments"], vlist [.atom "examples", vlist [vlist [.atom "partial", .atom "+", .num 1], .num 1], vlist [vlist [.atom "partial", .atom "+", .num 2, .num 3], .num 4, .num 5]]])

/-- `partial`, lisp/l1.l1:583, as a function value. -/
def k_partial : Val := .lam ["f"] "args" k_partial_body k_partial_doc false 0

/-- The body of `max`, lisp/l1.l1:592. -/
def k_max_body : Val := vlist [vlist [.atom "let", vlist [vlist [.atom "n", vlist [.atom "len", .atom "args"]], vlist [.atom "n1", vlist [.atom "first", .atom "args"]], vlist [.atom "n2", vlist [.atom "second", .atom "args"]]], vlist [.atom "cond", vlist [vlist [.atom "zero?", .atom "n"], vlist [.atom "error", vlist [.atom "quote", vlist [.atom "max", .atom "needs", .atom "at", .atom "least", .atom "one", .atom "number"]]]], vlist [vlist [.atom "=", .num 1, .atom "n"], .atom "n1"], vlist [vlist [.atom "=", .num 2, .atom "n"], vlist [.atom "if", vlist [.atom "<", .atom "n1", .atom "n2"], .atom "n2", .atom "n1"]], vlist [.atom "t", vlist [.atom "reduce", .atom "max", vlist [.atom "max", .atom "n1", .atom "n2"], vlist [.atom "cdr", vlist [.atom "cdr", .atom "args"]]]]]]]

/-- The documentation of `max`, lisp/l1.l1:592. -/
def k_max_doc : Val := (vlist [vlist [.atom "find", .atom "maximum", .atom "of", .atom "one", .atom "or", .atom "more", .atom "numbers"], vlist [.atom "examples", vlist [.atom "max", .num (-5)], vlist [.atom "max", .num 2, .num 3], vlist [.atom "apply", .atom "max", vlist [.atom "range", .num 10]]]])

/-- `max`, lisp/l1.l1:592, as a function value. -/
def k_max : Val := .lam [] "args" k_max_body k_max_doc false 0

/-- The body of `min`, lisp/l1.l1:606. -/
def k_min_body : Val := vlist [vlist [.atom "let", vlist [vlist [.atom "n", vlist [.atom "len", .atom "args"]], vlist [.atom "n1", vlist [.atom "first", .atom "args"]], vlist [.atom "n2", vlist [.atom "second", .atom "args"]]], vlist [.atom "cond", vlist [vlist [.atom "zero?", .atom "n"], vlist [.atom "error", vlist [.atom "quote", vlist [.atom "min", .atom "needs", .atom "at", .atom "least", .atom "one", .atom "number"]]]], vlist [vlist [.atom "=", .num 1, .atom "n"], .atom "n1"], vlist [vlist [.atom "=", .num 2, .atom "n"], vlist [.atom "if", vlist [.atom "<", .atom "n2", .atom "n1"], .atom "n2", .atom "n1"]], vlist [.atom "t", vlist [.atom "reduce", .atom "min", vlist [.atom "min", .atom "n1", .atom "n2"], vlist [.atom "cdr", vlist [.atom "cdr", .atom "args"]]]]]]]

/-- The documentation of `min`, lisp/l1.l1:606. -/
def k_min_doc : Val := (vlist [vlist [.atom "find", .atom "minimum", .atom "of", .atom "one", .atom "or", .atom "more", .atom "numbers"], vlist [.atom "examples", vlist [.atom "min", .num (-5)], vlist [.atom "min", .num 2, .num 3], vlist [.atom "apply", .atom "min", vlist [.atom "range", .num 10]]]])

/-- `min`, lisp/l1.l1:606, as a function value. -/
def k_min : Val := .lam [] "args" k_min_body k_min_doc false 0

/-- The body of `not=`, lisp/l1.l1:620. -/
def k_notEq_body : Val := vlist [vlist [.atom "not", vlist [.atom "apply", .atom "=", .atom "terms"]]]

/-- The documentation of `not=`, lisp/l1.l1:620. -/
def k_notEq_doc : Val := (vlist [vlist [.atom "complement", .atom "of", .atom "=", .atom "function"], vlist [.atom "examples", vlist [.atom "not=", .num 1, .num 2], vlist [.atom "not=", vlist [.atom "quote", .atom "a"], vlist [.atom "quote", .atom "a"]]]])

/-- `not=`, lisp/l1.l1:620, as a function value. -/
def k_notEq : Val := .lam [] "terms" k_notEq_body k_notEq_doc false 0

/-- The body of `interpose`, lisp/l1.l1:627. -/
def k_interpose_body : Val := vlist [vlist [.atom "cond", vlist [vlist [.atom "not", .atom "l"], .nil], vlist [vlist [.atom "not", vlist [.atom "cdr", .atom "l"]], .atom "l"], vlist [.atom "t", vlist [.atom "cons", vlist [.atom "car", .atom "l"], vlist [.atom "cons", .atom "x", vlist [.atom "interpose", .atom "x", vlist [.atom "cdr", .atom "l"]]]]]]]

/-- The documentation of `interpose`, lisp/l1.l1:627. -/
def k_interpose_doc : Val := (vlist [vlist [.atom "interpose", .atom "x", .atom "between", .atom "all", .atom "elements", .atom "of", .atom "l"], vlist [.atom "examples", vlist [.atom "interpose", .atom "BANG", vlist [.atom "range", .num 5]]]])

/-- `interpose`, lisp/l1.l1:627, as a function value. -/
def k_interpose : Val := .lam ["x", "l"] "" k_interpose_body k_interpose_doc false 0

/-- The body of `enumerate`, lisp/l1.l1:635. -/
def k_enumerate_body : Val := vlist [vlist [.atom "let", vlist [vlist [.atom "c", .num 0], vlist [.atom "ret", .nil]], vlist [.atom "foreach", .atom "x", .atom "l", vlist [.atom "set!", .atom "ret", vlist [.atom "cons", vlist [.atom "list", .atom "c", .atom "x"], .atom "ret"]], vlist [.atom "set!", .atom "c", vlist [.atom "inc", .atom "c"]]], vlist [.atom "reverse", .atom "ret"]]]

/-- The documentation of `enumerate`, lisp/l1.l1:635. -/
def k_enumerate_doc : Val := (vlist [vlist [.atom "returning", .atom "list", .atom "of", vlist [.atom "i,", .atom "x"], .atom "pairs", .atom "where", .atom "i", .atom "is", .atom "the", .atom "index", vlist [.atom "from", .atom "zero"], .atom "and", .atom "x", .atom "is", .atom "the", .atom "original", .atom "element", .atom "from", .atom "l"], vlist [.atom "examples", vlist [.atom "enumerate", vlist [.atom "quote", vlist [.atom "a", .atom "b", .atom "c"]]]]])

/-- `enumerate`, lisp/l1.l1:635, as a function value. -/
def k_enumerate : Val := .lam ["l"] "" k_enumerate_body k_enumerate_doc false 0

/-- The body of `abs`, lisp/l1.l1:648. -/
def k_abs_body : Val := vlist [vlist [.atom "if", vlist [.atom "neg?", .atom "x"], vlist [.atom "-", .atom "x"], .atom "x"]]

/-- The documentation of `abs`, lisp/l1.l1:648. -/
def k_abs_doc : Val := (vlist [vlist [.atom "return", .atom "absolute", .atom "value", .atom "of", .atom "x"], vlist [.atom "examples", vlist [.atom "abs", .num 1], vlist [.atom "abs", .num (-100)]]])

/-- `abs`, lisp/l1.l1:648, as a function value. -/
def k_abs : Val := .lam ["x"] "" k_abs_body k_abs_doc false 0

/-- The top-level forms of lisp/l1.l1, in order. -/
def coreForms : List Val := [
  vlist [.atom "def", .atom "pi100", vlist [.atom "fuse", vlist [.atom "quote", vlist [.num 31415926535897932384626433832795028, .num 84197169399375105820974944592307816, .num 406286208998628034825342117067]]]],
  vlist [.atom "defn", .atom "identity", vlist [.atom "x"], vlist [.atom "doc", vlist [.atom "return", .atom "the", .atom "argument"]], .atom "x"],
  vlist [.atom "defn", .atom "concat2", vlist [.atom "a", .atom "b"], vlist [.atom "doc", vlist [.atom "concatenate", .atom "two", .atom "lists"], vlist [.atom "used", .atom "in", .atom "syntax", .atom "quote", .atom "expansion", .atom "--", .atom "use", .atom "only", .atom "builtin", .atom "functions"], vlist [.atom "as", .atom "it", .atom "is", .atom "used", .atom "during", .atom "syntax", .atom "quote", .atom "expansion,", .atom "it", .atom "needs", .atom "to", .atom "be", .atom "defined", .atom "early", .atom "and", .atom "to", .atom "use", .atom "native", .atom "functinos", .atom "only"], vlist [.atom "examples", vlist [.atom "concat2", .nil, .nil], vlist [.atom "concat2", vlist [.atom "quote", vlist [.num 1, .num 2]], vlist [.atom "quote", vlist [.num 3, .num 4]]]]], vlist [.atom "cond", vlist [vlist [.atom "not", .atom "a"], .atom "b"], vlist [.atom "t", vlist [.atom "cons", vlist [.atom "car", .atom "a"], vlist [.atom "concat2", vlist [.atom "cdr", .atom "a"], .atom "b"]]]]],
  vlist [.atom "defn", .atom "c*r", vlist [.atom "path", .atom "l"], vlist [.atom "doc", .nil], vlist [.atom "cond", vlist [vlist [.atom "not", .atom "path"], .atom "l"], vlist [vlist [.atom "=", vlist [.atom "quote", .atom "a"], vlist [.atom "car", .atom "path"]], vlist [.atom "c*r", vlist [.atom "cdr", .atom "path"], vlist [.atom "car", .atom "l"]]], vlist [vlist [.atom "=", vlist [.atom "quote", .atom "d"], vlist [.atom "car", .atom "path"]], vlist [.atom "c*r", vlist [.atom "cdr", .atom "path"], vlist [.atom "cdr", .atom "l"]]], vlist [.atom "t", vlist [.atom "error", vlist [.atom "concat2", vlist [.atom "quote", vlist [.atom "unknown", .atom "c*r", .atom "path", .atom "element"]], vlist [.atom "list", .atom "COLON", vlist [.atom "car", .atom "path"]]]]]]],
  vlist [.atom "defmacro", .atom "if", vlist [.atom "condition", .atom "then", .atom "else"], vlist [.atom "doc", vlist [.atom "simple", .atom "conditional", .atom "with", .atom "two", .atom "branches"], vlist [.atom "examples", vlist [.atom "if", .atom "t", .num 111, .num 333], vlist [.atom "if", .nil, vlist [.atom "quote", .atom "abc"], vlist [.atom "quote", .atom "def"]]]], vlist [.atom "syntax-quote", vlist [.atom "cond", vlist [vlist [.atom "unquote", .atom "condition"], vlist [.atom "unquote", .atom "then"]], vlist [.atom "t", vlist [.atom "unquote", .atom "else"]]]]],
  vlist [.atom "defmacro", .atom "if-not", vlist [.atom "condition", .atom "then", .atom "else"], vlist [.atom "doc", vlist [.atom "simple", vlist [.atom "inverted"], .atom "conditional", .atom "with", .atom "two", .atom "branches"], vlist [.atom "examples", vlist [.atom "if-not", vlist [.atom "odd?", .num 3], vlist [.atom "quote", vlist [.atom "help,", .atom "they", .atom "broke", .atom "three"]], vlist [.atom "quote", vlist [.atom "three", .atom "is", .atom "odd"]]]]], vlist [.atom "syntax-quote", vlist [.atom "cond", vlist [vlist [.atom "not", vlist [.atom "unquote", .atom "condition"]], vlist [.atom "unquote", .atom "then"]], vlist [.atom "t", vlist [.atom "unquote", .atom "else"]]]]],
  vlist [.atom "defmacro", .atom "comment", mkList [.nil] (.atom "body"), vlist [.atom "doc", vlist [.atom "ignore", .atom "the", .atom "expressions", .atom "in", .atom "the", .atom "block"], vlist [.atom "examples", vlist [.atom "comment", .atom "twas", .atom "brillig,", .atom "and", .atom "the", .atom "slithy", .atom "toves", .atom "did", .atom "gyre", .atom "and", .atom "gimble", .atom "in", .atom "the", .atom "wabe"]]]],
  vlist [.atom "defmacro", .atom "progn", mkList [.nil] (.atom "body"), vlist [.atom "doc", vlist [.atom "execute", .atom "multiple", .atom "statements,", .atom "returning", .atom "the", .atom "last"], vlist [.atom "examples", vlist [.atom "progn"], vlist [.atom "progn", .num 1, .num 2, .num 3]]], vlist [.atom "syntax-quote", vlist [.atom "let", .nil, vlist [.atom "splicing-unquote", .atom "body"]]]],
  vlist [.atom "defmacro", .atom "when", mkList [.atom "condition"] (.atom "body"), vlist [.atom "doc", vlist [.atom "simple", .atom "conditional", .atom "with", .atom "single", .atom "branch"], vlist [.atom "examples", vlist [.atom "when", .nil, vlist [.atom "/", .num 1, .num 0]], vlist [.atom "when", .atom "t", vlist [.atom "quote", vlist [.atom "the", .atom "sun", .atom "rises", .atom "in", .atom "the", .atom "east"]]]]], vlist [.atom "syntax-quote", vlist [.atom "cond", vlist [vlist [.atom "unquote", .atom "condition"], vlist [.atom "progn", vlist [.atom "splicing-unquote", .atom "body"]]]]]],
  vlist [.atom "defmacro", .atom "when-not", mkList [.atom "condition"] (.atom "body"), vlist [.atom "doc", vlist [.atom "complement", .atom "of", .atom "the", .atom "when", .atom "macro"], vlist [.atom "examples", vlist [.atom "when-not", .nil, vlist [.atom "quote", vlist [.atom "do", .atom "all", .atom "the", .atom "things"]]], vlist [.atom "when-not", .atom "t", vlist [.atom "error", vlist [.atom "quote", vlist [.atom "oh", .atom "no", .atom "mister", .atom "bill"]]]]]], vlist [.atom "syntax-quote", vlist [.atom "when", vlist [.atom "not", vlist [.atom "unquote", .atom "condition"]], vlist [.atom "splicing-unquote", .atom "body"]]]],
  vlist [.atom "defmacro", .atom "foreach", mkList [.atom "x", .atom "xs"] (.atom "body"), vlist [.atom "doc", vlist [.atom "execute", .atom "body", .atom "for", .atom "each", .atom "value", .atom "in", .atom "a", .atom "list"]], vlist [.atom "syntax-quote", vlist [.atom "map", vlist [.atom "lambda", vlist [vlist [.atom "unquote", .atom "x"]], vlist [.atom "splicing-unquote", .atom "body"]], vlist [.atom "unquote", .atom "xs"]]]],
  vlist [.atom "defn", .atom "reduce", mkList [.atom "f", .atom "x"] (.atom "args"), vlist [.atom "doc", vlist [.atom "successively", .atom "apply", .atom "a", .atom "function", .atom "against", .atom "a", .atom "list", .atom "of", .atom "arguments"], vlist [.atom "examples", vlist [.atom "reduce", .atom "*", vlist [.atom "cdr", vlist [.atom "range", .num 10]]], vlist [.atom "reduce", vlist [.atom "lambda", vlist [.atom "acc", .atom "x"], vlist [.atom "cons", .atom "x", .atom "acc"]], .nil, vlist [.atom "range", .num 10]]]], vlist [.atom "let", vlist [vlist [.atom "inner", vlist [.atom "lambda", .atom "inner", vlist [.atom "f", .atom "acc", .atom "l"], vlist [.atom "if", vlist [.atom "not", .atom "l"], .atom "acc", vlist [.atom "inner", .atom "f", vlist [.atom "f", .atom "acc", vlist [.atom "car", .atom "l"]], vlist [.atom "cdr", .atom "l"]]]]]], vlist [.atom "cond", vlist [vlist [.atom "not", .atom "args"], vlist [.atom "if", vlist [.atom "not", .atom "x"], vlist [.atom "f"], vlist [.atom "inner", .atom "f", vlist [.atom "car", .atom "x"], vlist [.atom "cdr", .atom "x"]]]], vlist [vlist [.atom "=", vlist [.atom "len", .atom "args"], .num 1], vlist [.atom "inner", .atom "f", .atom "x", vlist [.atom "car", .atom "args"]]], vlist [.atom "t", vlist [.atom "error", vlist [.atom "quote", vlist [.atom "reduce", .atom "needs", .atom "at", .atom "least", .atom "two", .atom "arguments"]]]]]]],
  vlist [.atom "defn", .atom "concat", mkList [.nil] (.atom "lists"), vlist [.atom "doc", vlist [.atom "concatenenate", .atom "any", .atom "number", .atom "of", .atom "lists"], vlist [.atom "examples", vlist [.atom "concat", vlist [.atom "range", .num 3], vlist [.atom "quote", vlist [.atom "wow"]], vlist [.atom "reverse", vlist [.atom "range", .num 3]]]]], vlist [.atom "let", vlist [vlist [.atom "concat2", vlist [.atom "lambda", .atom "concat2", vlist [.atom "a", .atom "b"], vlist [.atom "if", vlist [.atom "not", .atom "a"], .atom "b", vlist [.atom "cons", vlist [.atom "car", .atom "a"], vlist [.atom "concat2", vlist [.atom "cdr", .atom "a"], .atom "b"]]]]]], vlist [.atom "when", .atom "lists", vlist [.atom "reduce", .atom "concat2", .atom "lists"]]]],
  vlist [.atom "defn", .atom "reverse", vlist [.atom "l"], vlist [.atom "doc", vlist [.atom "reverse", .atom "a", .atom "list"], vlist [.atom "examples", vlist [.atom "=", vlist [.atom "quote", vlist [.atom "c", .atom "b", .atom "a"]], vlist [.atom "reverse", vlist [.atom "quote", vlist [.atom "a", .atom "b", .atom "c"]]]]]], vlist [.atom "when", .atom "l", vlist [.atom "concat", vlist [.atom "reverse", vlist [.atom "cdr", .atom "l"]], vlist [.atom "cons", vlist [.atom "car", .atom "l"], .nil]]]],
  vlist [.atom "defn", .atom "zero?", vlist [.atom "n"], vlist [.atom "doc", vlist [.atom "return", .atom "true", .atom "iff", .atom "the", .atom "supplied", .atom "argument", .atom "is", .atom "zero"], vlist [.atom "examples", vlist [.atom "zero?", vlist [.atom "quote", .atom "zero"]], vlist [.atom "zero?", vlist [.atom "-", .num 1, .num 1]]]], vlist [.atom "=", .atom "n", .num 0]],
  vlist [.atom "defn", .atom "neg?", vlist [.atom "n"], vlist [.atom "doc", vlist [.atom "return", .atom "true", .atom "iff", .atom "the", .atom "supplied", .atom "integer", .atom "argument", .atom "is", .atom "less", .atom "than", .atom "zero"], vlist [.atom "examples", vlist [.atom "map", .atom "neg?", vlist [.atom "map", vlist [.atom "lambda", vlist [.atom "x"], vlist [.atom "-", .atom "x", .num 5]], vlist [.atom "range", .num 10]]]]], vlist [.atom "<", .atom "n", .num 0]],
  vlist [.atom "defn", .atom "juxt", mkList [.nil] (.atom "fs"), vlist [.atom "doc", vlist [.atom "create", .atom "a", .atom "function", .atom "which", .atom "combines", .atom "multiple", .atom "operations", .atom "into", .atom "a", .atom "single", .atom "list", .atom "of", .atom "results"], vlist [.atom "examples", vlist [vlist [.atom "juxt", .atom "inc", .atom "dec"], .num 0], vlist [.atom "map", vlist [.atom "juxt", .atom "inc", .atom "dec"], vlist [.atom "range", .num 3]], vlist [.atom "map", vlist [.atom "juxt", .atom "even?", .atom "odd?", .atom "zero?"], vlist [.atom "quote", vlist [.num (-2), .num (-1), .num 0, .num 1, .num 2]]], vlist [.atom "map", vlist [.atom "juxt"], vlist [.atom "range", .num 3]]]], vlist [.atom "lambda", vlist [.atom "x"], vlist [.atom "map", vlist [.atom "lambda", vlist [.atom "f"], vlist [.atom "f", .atom "x"]], .atom "fs"]]],
  vlist [.atom "defn", .atom "pos?", vlist [.atom "n"], vlist [.atom "doc", vlist [.atom "return", .atom "true", .atom "iff", .atom "the", .atom "supplied", .atom "integer", .atom "argument", .atom "is", .atom "greater", .atom "than", .atom "zero"], vlist [.atom "examples", vlist [.atom "map", .atom "pos?", vlist [.atom "map", vlist [.atom "lambda", vlist [.atom "x"], vlist [.atom "-", .atom "x", .num 5]], vlist [.atom "range", .num 10]]]]], vlist [.atom "<", .num 0, .atom "n"]],
  vlist [.atom "defn", .atom "inc", vlist [.atom "n"], vlist [.atom "doc", vlist [.atom "return", .atom "the", .atom "supplied", .atom "integer", .atom "argument,", .atom "plus", .atom "one"]], vlist [.atom "+", .atom "n", .num 1]],
  vlist [.atom "defn", .atom "dec", vlist [.atom "n"], vlist [.atom "doc", vlist [.atom "return", .atom "the", .atom "supplied", .atom "integer", .atom "argument,", .atom "minus", .atom "one"], vlist [.atom "examples", vlist [.atom "dec", .num 2], vlist [.atom "dec", .num (-1)]]], vlist [.atom "-", .atom "n", .num 1]],
  vlist [.atom "defn", .atom "range", vlist [.atom "n"], vlist [.atom "when", vlist [.atom "pos?", .atom "n"], vlist [.atom "let", vlist [vlist [.atom "inner", vlist [.atom "lambda", .atom "inner", vlist [.atom "n"], vlist [.atom "if", vlist [.atom "=", .num 1, .atom "n"], vlist [.atom "cons", vlist [.atom "dec", .atom "n"], .nil], vlist [.atom "cons", vlist [.atom "dec", .atom "n"], vlist [.atom "inner", vlist [.atom "dec", .atom "n"]]]]]]], vlist [.atom "reverse", vlist [.atom "inner", .atom "n"]]]]],
  vlist [.atom "defmacro", .atom "while", mkList [.atom "condition"] (.atom "body"), vlist [.atom "doc", vlist [.atom "loop", .atom "for", .atom "as", .atom "long", .atom "as", .atom "condition", .atom "is", .atom "true"], vlist [.atom "examples", vlist [.atom "while", .nil, vlist [.atom "launch-missiles"]]]], vlist [.atom "let", vlist [vlist [.atom "inner-sym", vlist [.atom "gensym", vlist [.atom "quote", .atom "inner"]]]], vlist [.atom "syntax-quote", vlist [.atom "let", vlist [vlist [vlist [.atom "unquote", .atom "inner-sym"], vlist [.atom "lambda", vlist [.atom "unquote", .atom "inner-sym"], .nil, vlist [.atom "when", vlist [.atom "unquote", .atom "condition"], vlist [.atom "splicing-unquote", .atom "body"], vlist [vlist [.atom "unquote", .atom "inner-sym"]]]]]], vlist [vlist [.atom "unquote", .atom "inner-sym"]]]]]],
  vlist [.atom "defn", .atom "range", vlist [.atom "n"], vlist [.atom "doc", vlist [.atom "list", .atom "of", .atom "integers", .atom "from", .num 0, .atom "to", .atom "n"], vlist [.atom "examples", vlist [.atom "range", .num 10], vlist [.atom "len", vlist [.atom "range", .num 100]]]], vlist [.atom "when", vlist [.atom "pos?", .atom "n"], vlist [.atom "let", vlist [vlist [.atom "c", .atom "n"], vlist [.atom "acc", .nil]], vlist [.atom "while", vlist [.atom "pos?", .atom "c"], vlist [.atom "set!", .atom "c", vlist [.atom "dec", .atom "c"]], vlist [.atom "set!", .atom "acc", vlist [.atom "cons", .atom "c", .atom "acc"]]], .atom "acc"]]],
  vlist [.atom "defn", .atom "nth", vlist [.atom "n", .atom "l"], vlist [.atom "doc", vlist [.atom "find", .atom "the", .atom "nth", .atom "value", .atom "of", .atom "a", .atom "list,", .atom "starting", .atom "from", .atom "zero"], vlist [.atom "examples", vlist [.atom "nth", .num 3, vlist [.atom "quote", vlist [.atom "one", .atom "two", .atom "three", .atom "four", .atom "five"]]], vlist [.atom "nth", .num 1000, vlist [.atom "range", .num 2]]]], vlist [.atom "cond", vlist [vlist [.atom "not", .atom "l"], .nil], vlist [vlist [.atom "zero?", .atom "n"], vlist [.atom "car", .atom "l"]], vlist [.atom "t", vlist [.atom "nth", vlist [.atom "dec", .atom "n"], vlist [.atom "cdr", .atom "l"]]]]],
  vlist [.atom "defn", .atom "last", vlist [.atom "l"], vlist [.atom "doc", vlist [.atom "return", .atom "the", .atom "last", .atom "item", .atom "in", .atom "a", .atom "list"], vlist [.atom "examples", vlist [.atom "last", vlist [.atom "range", .num 10]], vlist [.atom "last", vlist [.atom "split", vlist [.atom "quote", .atom "ATOM!"]]]]], vlist [.atom "let", vlist [vlist [.atom "c", vlist [.atom "cdr", .atom "l"]]], vlist [.atom "if-not", .atom "c", vlist [.atom "car", .atom "l"], vlist [.atom "last", .atom "c"]]]],
  vlist [.atom "defn", .atom "take", vlist [.atom "n", .atom "l"], vlist [.atom "doc", vlist [.atom "take", .atom "up", .atom "to", .atom "n", .atom "items", .atom "from", .atom "the", .atom "supplied", .atom "list"], vlist [.atom "examples", vlist [.atom "take", .num 3, vlist [.atom "range", .num 10]]]], vlist [.atom "cond", vlist [vlist [.atom "zero?", .atom "n"], .nil], vlist [vlist [.atom "not", .atom "l"], .nil], vlist [.atom "t", vlist [.atom "cons", vlist [.atom "car", .atom "l"], vlist [.atom "take", vlist [.atom "dec", .atom "n"], vlist [.atom "cdr", .atom "l"]]]]]],
  vlist [.atom "defn", .atom "drop", vlist [.atom "n", .atom "l"], vlist [.atom "doc", vlist [.atom "drop", .atom "n", .atom "items", .atom "from", .atom "a", .atom "list,", .atom "then", .atom "return", .atom "the", .atom "rest"], vlist [.atom "examples", vlist [.atom "drop", .num 3, vlist [.atom "range", .num 10]]]], vlist [.atom "cond", vlist [vlist [.atom "zero?", .atom "n"], .atom "l"], vlist [vlist [.atom "not", .atom "l"], .nil], vlist [.atom "t", vlist [.atom "drop", vlist [.atom "dec", .atom "n"], vlist [.atom "cdr", .atom "l"]]]]],
  vlist [.atom "defn", .atom "complement", vlist [.atom "f"], vlist [.atom "doc", vlist [.atom "return", .atom "the", .atom "logical", .atom "complement", .atom "of", .atom "the", .atom "supplied", .atom "function"], vlist [.atom "examples", vlist [vlist [.atom "complement", .atom "even?"], .num 1], vlist [.atom "map", vlist [.atom "complement", .atom "odd?"], vlist [.atom "range", .num 5]]]], vlist [.atom "lambda", vlist [.atom "x"], vlist [.atom "not", vlist [.atom "f", .atom "x"]]]],
  vlist [.atom "defn", .atom "even?", vlist [.atom "n"], vlist [.atom "doc", vlist [.atom "return", .atom "true", .atom "if", .atom "the", .atom "supplied", .atom "integer", .atom "argument", .atom "is", .atom "even"], vlist [.atom "examples", vlist [.atom "map", .atom "even?", vlist [.atom "range", .num 5]]]], vlist [.atom "zero?", vlist [.atom "rem", .atom "n", .num 2]]],
  vlist [.atom "defn", .atom "odd?", vlist [.atom "n"], vlist [.atom "doc", vlist [.atom "return", .atom "true", .atom "if", .atom "the", .atom "supplied", .atom "integer", .atom "argument", .atom "is", .atom "odd"], vlist [.atom "examples", vlist [.atom "map", .atom "even?", vlist [.atom "range", .num 5]]]], vlist [.atom "not", vlist [.atom "even?", .atom "n"]]],
  vlist [.atom "defn", .atom "flatten", vlist [.atom "l"], vlist [.atom "doc", vlist [.atom "return", .atom "a", vlist [.atom "possibly", .atom "nested"], .atom "list,", .atom "flattened"], vlist [.atom "examples", vlist [.atom "flatten", vlist [.atom "quote", vlist [.atom "this", .atom "is", .atom "a", vlist [.atom "really", vlist [.atom "nested"], .atom "list"]]]]]], vlist [.atom "cond", vlist [vlist [.atom "not", .atom "l"], .nil], vlist [vlist [.atom "list?", .atom "l"], vlist [.atom "concat", vlist [.atom "flatten", vlist [.atom "car", .atom "l"]], vlist [.atom "flatten", vlist [.atom "cdr", .atom "l"]]]], vlist [.atom "t", vlist [.atom "list", .atom "l"]]]],
  vlist [.atom "defn", .atom "constantly", vlist [.atom "x"], vlist [.atom "doc", vlist [.atom "given", .atom "a", .atom "value,", .atom "return", .atom "a", .atom "function", .atom "which", .atom "always", .atom "returns", .atom "that", .atom "value"], vlist [.atom "examples", vlist [.atom "map", vlist [.atom "constantly", .atom "t"], vlist [.atom "range", .num 10]]]], vlist [.atom "lambda", mkList [.nil] (.atom "_"), .atom "x"]],
  vlist [.atom "defn", .atom "repeat", vlist [.atom "n", .atom "x"], vlist [.atom "doc", vlist [.atom "return", .atom "a", .atom "list", .atom "of", .atom "length", .atom "n", .atom "whose", .atom "elements", .atom "are", .atom "all", .atom "x"], vlist [.atom "examples", vlist [.atom "repeat", .num 5, vlist [.atom "quote", .atom "repetitive"]]]], vlist [.atom "when", vlist [.atom "pos?", .atom "n"], vlist [.atom "cons", .atom "x", vlist [.atom "repeat", vlist [.atom "dec", .atom "n"], .atom "x"]]]],
  vlist [.atom "defn", .atom "repeatedly", vlist [.atom "n", .atom "f"], vlist [.atom "doc", vlist [.atom "return", .atom "a", .atom "list", .atom "of", .atom "length", .atom "n", .atom "whose", .atom "elements", .atom "are", .atom "made", .atom "from", .atom "calling", .atom "f", .atom "repeatedly"], vlist [.atom "examples", vlist [.atom "repeatedly", .num 3, vlist [.atom "lambda", .nil, vlist [.atom "range", .num 5]]]]], vlist [.atom "when-not", vlist [.atom "zero?", .atom "n"], vlist [.atom "cons", vlist [.atom "f"], vlist [.atom "repeatedly", vlist [.atom "dec", .atom "n"], .atom "f"]]]],
  vlist [.atom "defn", .atom "true?", vlist [.atom "x"], vlist [.atom "doc", vlist [.atom "return", .atom "t", .atom "if", .atom "the", .atom "argument", .atom "is", .atom "t"], vlist [.atom "examples", vlist [.atom "true?", .num 3], vlist [.atom "true?", .atom "t"]]], vlist [.atom "=", .atom "x", .atom "t"]],
  vlist [.atom "defn", .atom "map", vlist [.atom "f", .atom "l"], vlist [.atom "doc", vlist [.atom "apply", .atom "the", .atom "supplied", .atom "function", .atom "to", .atom "every", .atom "element", .atom "in", .atom "the", .atom "supplied", .atom "list"], vlist [.atom "examples", vlist [.atom "map", .atom "odd?", vlist [.atom "range", .num 5]], vlist [.atom "map", .atom "true?", vlist [.atom "quote", vlist [.atom "foo", .atom "t", .nil, .atom "t", .num 3]]]]], vlist [.atom "when", .atom "l", vlist [.atom "cons", vlist [.atom "f", vlist [.atom "car", .atom "l"]], vlist [.atom "map", .atom "f", vlist [.atom "cdr", .atom "l"]]]]],
  vlist [.atom "defn", .atom "mapcat", vlist [.atom "f", .atom "l"], vlist [.atom "doc", vlist [.atom "map", .atom "a", .atom "function", .atom "onto", .atom "a", .atom "list", .atom "and", .atom "concatenate", .atom "results"], vlist [.atom "examples", vlist [.atom "map", .atom "list", vlist [.atom "range", .num 5]], vlist [.atom "mapcat", .atom "list", vlist [.atom "range", .num 5]], vlist [.atom "map", .atom "range", vlist [.atom "range", .num 5]], vlist [.atom "mapcat", .atom "range", vlist [.atom "range", .num 5]]]], vlist [.atom "reduce", .atom "concat", vlist [.atom "map", .atom "f", .atom "l"]]],
  vlist [.atom "defn", .atom "filter", vlist [.atom "f", .atom "l"], vlist [.atom "doc", vlist [.atom "keep", .atom "only", .atom "values", .atom "for", .atom "which", .atom "function", .atom "f", .atom "is", .atom "true"], vlist [.atom "examples", vlist [.atom "filter", .atom "odd?", vlist [.atom "range", .num 5]]]], vlist [.atom "cond", vlist [vlist [.atom "not", .atom "l"], .nil], vlist [vlist [.atom "f", vlist [.atom "car", .atom "l"]], vlist [.atom "cons", vlist [.atom "car", .atom "l"], vlist [.atom "filter", .atom "f", vlist [.atom "cdr", .atom "l"]]]], vlist [.atom "t", vlist [.atom "filter", .atom "f", vlist [.atom "cdr", .atom "l"]]]]],
  vlist [.atom "defn", .atom "remove", vlist [.atom "f", .atom "l"], vlist [.atom "doc", vlist [.atom "keep", .atom "only", .atom "values", .atom "for", .atom "which", .atom "function", .atom "f", .atom "is", .atom "false", .atom "/", .atom "the", .atom "empty", .atom "list"], vlist [.atom "examples", vlist [.atom "remove", .atom "odd?", vlist [.atom "range", .num 5]]]], vlist [.atom "filter", vlist [.atom "complement", .atom "f"], .atom "l"]],
  vlist [.atom "defn", .atom "**", vlist [.atom "n", .atom "m"], vlist [.atom "doc", vlist [.atom "exponentiation", .atom "operator"], vlist [.atom "examples", vlist [.atom "**", .num 1, .num 0], vlist [.atom "**", .num 2, .num 4], vlist [.atom "**", .num 10, .num 10]]], vlist [.atom "if", vlist [.atom "zero?", .atom "m"], .num 1, vlist [.atom "*", .atom "n", vlist [.atom "**", .atom "n", vlist [.atom "dec", .atom "m"]]]]],
  vlist [.atom "defn", .atom "capitalize", vlist [.atom "a"], vlist [.atom "doc", vlist [.atom "return", .atom "the", .atom "atom", .atom "argument,", .atom "capitalized"], vlist [.atom "examples", vlist [.atom "capitalize", vlist [.atom "quote", .atom "hello"]]]], vlist [.atom "let", vlist [vlist [.atom "s", vlist [.atom "split", .atom "a"]]], vlist [.atom "fuse", vlist [.atom "concat", vlist [.atom "map", .atom "upcase", vlist [.atom "take", .num 1, .atom "s"]], vlist [.atom "drop", .num 1, .atom "s"]]]]],
  vlist [.atom "defn", .atom "randigits", vlist [.atom "n"], vlist [.atom "doc", vlist [.atom "return", .atom "a", .atom "random", .atom "integer", .atom "between", .num 0, .atom "and", .atom "the", .atom "argument", .atom "minus", .num 1]], vlist [.atom "repeatedly", .atom "n", vlist [.atom "lambda", .nil, vlist [.atom "randint", .num 10]]]],
  vlist [.atom "defn", .atom "randchoice", vlist [.atom "l"], vlist [.atom "doc", vlist [.atom "return", .atom "an", .atom "element", .atom "at", .atom "random", .atom "from", .atom "the", .atom "supplied", .atom "list"]], vlist [.atom "when-not", .atom "l", vlist [.atom "error", vlist [.atom "quote", vlist [.atom "randchoice", .atom "expects", .atom "a", .atom "nonempty", .atom "list"]]]], vlist [.atom "nth", vlist [.atom "randint", vlist [.atom "len", .atom "l"]], .atom "l"]],
  vlist [.atom "defn", .atom "randalpha", vlist [.atom "n"], vlist [.atom "doc", vlist [.atom "return", .atom "a", .atom "list", .atom "of", .atom "random", vlist [.atom "English/Latin/unaccented"], .atom "lower-case", .atom "alphabetic", .atom "characters"]], vlist [.atom "repeatedly", .atom "n", vlist [.atom "lambda", .nil, vlist [.atom "randchoice", vlist [.atom "split", vlist [.atom "quote", .atom "abcdefghijklmnopqrstuvwxyz"]]]]]],
  vlist [.atom "defmacro", .atom "dotimes", mkList [.atom "n"] (.atom "body"), vlist [.atom "doc", vlist [.atom "execute", .atom "body", .atom "for", .atom "each", .atom "value", .atom "in", .atom "a", .atom "list"]], vlist [.atom "let", vlist [vlist [.atom "inner-sym", vlist [.atom "gensym"]], vlist [.atom "n-sym", vlist [.atom "gensym"]]], vlist [.atom "syntax-quote", vlist [.atom "let", vlist [vlist [vlist [.atom "unquote", .atom "n-sym"], vlist [.atom "unquote", .atom "n"]]], vlist [.atom "when-not", vlist [.atom "neg?", vlist [.atom "unquote", .atom "n-sym"]], vlist [.atom "let", vlist [vlist [vlist [.atom "unquote", .atom "inner-sym"], vlist [.atom "lambda", vlist [.atom "unquote", .atom "inner-sym"], vlist [.atom "count"], vlist [.atom "when-not", vlist [.atom "zero?", .atom "count"], vlist [.atom "splicing-unquote", .atom "body"], vlist [vlist [.atom "unquote", .atom "inner-sym"], vlist [.atom "-", .atom "count", .num 1]]]]]], vlist [vlist [.atom "unquote", .atom "inner-sym"], vlist [.atom "unquote", .atom "n-sym"]]]]]]]],
  vlist [.atom "defn", .atom "butlast", vlist [.atom "l"], vlist [.atom "doc", vlist [.atom "return", .atom "everything", .atom "but", .atom "the", .atom "last", .atom "element"], vlist [.atom "examples", vlist [.atom "butlast", .nil], vlist [.atom "butlast", vlist [.atom "range", .num 3]]]], vlist [.atom "take", vlist [.atom "dec", vlist [.atom "len", .atom "l"]], .atom "l"]],
  vlist [.atom "defn", .atom "punctuate", vlist [.atom "f", .atom "x"], vlist [.atom "doc", vlist [.atom "return", .atom "x", .atom "capitalized,", .atom "with", .atom "punctuation", .atom "determined", .atom "by", .atom "the", .atom "supplied", .atom "function"]], vlist [.atom "cond", vlist [vlist [.atom "not", .atom "x"], .atom "x"], vlist [vlist [.atom "=", vlist [.atom "len", .atom "x"], .num 1], vlist [.atom "list", vlist [.atom "capitalize", vlist [.atom "f", vlist [.atom "car", .atom "x"]]]]], vlist [.atom "t", vlist [.atom "cons", vlist [.atom "capitalize", vlist [.atom "car", .atom "x"]], vlist [.atom "concat", vlist [.atom "cdr", vlist [.atom "butlast", .atom "x"]], vlist [.atom "list", vlist [.atom "f", vlist [.atom "last", .atom "x"]]]]]]]],
  vlist [.atom "defn", .atom "tosentence", vlist [.atom "l"], vlist [.atom "doc", vlist [.atom "return", .atom "l", .atom "as", .atom "a", .atom "sentence...", .atom "capitalized,", .atom "with", .atom "a", .atom "period", .atom "at", .atom "the", .atom "end"], vlist [.atom "examples", vlist [.atom "tosentence", vlist [.atom "quote", vlist [.atom "to", .atom "be,", .atom "or", .atom "not", .atom "to", .atom "be,", .atom "that", .atom "is", .atom "the", .atom "question"]]]]], vlist [.atom "punctuate", .atom "period", .atom "l"]],
  vlist [.atom "defn", .atom "exclaim", vlist [.atom "l"], vlist [.atom "doc", vlist [.atom "return", .atom "l", .atom "as", .atom "a", .atom "sentence...", .atom "emphasized!"], vlist [.atom "examples", vlist [.atom "exclaim", vlist [.atom "quote", vlist [.atom "well,", .atom "hello"]]], vlist [.atom "exclaim", vlist [.atom "quote", vlist [.atom "help"]]], vlist [.atom "exclaim", vlist [.atom "quote", vlist [.atom "begone,", .atom "fiend"]]]]], vlist [.atom "punctuate", .atom "bang", .atom "l"]],
  vlist [.atom "defn", .atom "list*", mkList [.nil] (.atom "args"), vlist [.atom "doc", vlist [.atom "create", .atom "a", .atom "list", .atom "by", .atom "consing", .atom "everything", .atom "but", .atom "the", .atom "last", .atom "arg", .atom "onto", .atom "the", .atom "last"], vlist [.atom "examples", vlist [.atom "list*", .num 1, .num 2, vlist [.atom "quote", vlist [.num 3]]], vlist [.atom "list*", .num 1, .num 2, vlist [.atom "quote", vlist [.num 3, .num 4]]], vlist [.atom "list*"]]], vlist [.atom "when", .atom "args", vlist [.atom "let", vlist [vlist [.atom "endl", vlist [.atom "last", .atom "args"]], vlist [.atom "other", vlist [.atom "butlast", .atom "args"]]], vlist [.atom "concat", .atom "other", .atom "endl"]]]],
  vlist [.atom "defmacro", .atom "with-screen", mkList [.nil] (.atom "body"), vlist [.atom "doc", vlist [.atom "prepare", .atom "for", .atom "and", .atom "clean", .atom "up", .atom "after", .atom "screen", .atom "operations"]], vlist [.atom "syntax-quote", vlist [.atom "progn", vlist [.atom "screen-start"], vlist [.atom "let", vlist [vlist [.atom "result", vlist [.atom "progn", vlist [.atom "splicing-unquote", .atom "body"]]]], vlist [.atom "screen-end"], .atom "result"]]]],
  vlist [.atom "defn", .atom "some", vlist [.atom "f", .atom "l"], vlist [.atom "doc", vlist [.atom "return", .atom "f", .atom "applied", .atom "to", .atom "first", .atom "element", .atom "for", .atom "which", .atom "that", .atom "result", .atom "is", .atom "truthy,", .atom "else", .nil], vlist [.atom "examples", vlist [.atom "some", .atom "even?", vlist [.atom "quote", vlist [.num 1, .num 3, .num 5, .num 7, .num 9, .num 11, .num 13]]], vlist [.atom "some", .atom "even?", vlist [.atom "quote", vlist [.num 1, .num 3, .num 5, .num 7, .num 9, .num 1000, .num 11, .num 13]]]]], vlist [.atom "when", .atom "l", vlist [.atom "let", vlist [vlist [.atom "result", vlist [.atom "f", vlist [.atom "car", .atom "l"]]]], vlist [.atom "if", .atom "result", .atom "result", vlist [.atom "some", .atom "f", vlist [.atom "cdr", .atom "l"]]]]]],
  vlist [.atom "defn", .atom "every", vlist [.atom "f", .atom "l"], vlist [.atom "doc", vlist [.atom "return", .atom "t", .atom "if", .atom "f", .atom "applied", .atom "to", .atom "every", .atom "element", .atom "in", .atom "l", .atom "is", .atom "truthy,", .atom "else", .nil], vlist [.atom "examples", vlist [.atom "every", .atom "odd?", vlist [.atom "quote", vlist [.num 1, .num 3, .num 5]]], vlist [.atom "every", .atom "odd?", vlist [.atom "quote", vlist [.num 1, .num 2, .num 3, .num 5]]]]], vlist [.atom "if-not", .atom "l", .atom "t", vlist [.atom "let", vlist [vlist [.atom "result", vlist [.atom "f", vlist [.atom "car", .atom "l"]]]], vlist [.atom "if", vlist [.atom "not", .atom "result"], .nil, vlist [.atom "every", .atom "f", vlist [.atom "cdr", .atom "l"]]]]]],
  vlist [.atom "defn", .atom "punctuate-atom", vlist [.atom "a", .atom "mark"], vlist [.atom "doc", vlist [.atom "add", .atom "a", .atom "punctuation", .atom "mark", .atom "at", .atom "end", .atom "of", .atom "atom"], vlist [.atom "examples", vlist [.atom "punctuate-atom", vlist [.atom "quote", .atom "list"], vlist [.atom "quote", .atom "*"]], vlist [.atom "punctuate-atom", vlist [.atom "quote", .atom "list"], .atom "COLON"]]], vlist [.atom "let", vlist [vlist [.atom "l", vlist [.atom "split", .atom "a"]]], vlist [.atom "fuse", vlist [.atom "concat", .atom "l", vlist [.atom "list", .atom "mark"]]]]],
  vlist [.atom "defn", .atom "bang", vlist [.atom "a"], vlist [.atom "doc", vlist [.atom "add", .atom "an", .atom "exclamation", .atom "point", .atom "at", .atom "end", .atom "of", .atom "atom"], vlist [.atom "examples", vlist [.atom "bang", vlist [.atom "quote", .atom "Bang"]]]], vlist [.atom "punctuate-atom", .atom "a", .atom "BANG"]],
  vlist [.atom "defn", .atom "comma", vlist [.atom "a"], vlist [.atom "doc", vlist [.atom "add", .atom "a", .atom "comma", .atom "at", .atom "end", .atom "of", .atom "atom"], vlist [.atom "examples", vlist [.atom "comma", vlist [.atom "quote", .atom "hello"]]]], vlist [.atom "punctuate-atom", .atom "a", .atom "COMMA"]],
  vlist [.atom "defn", .atom "period", vlist [.atom "a"], vlist [.atom "doc", vlist [.atom "add", .atom "a", .atom "period", .atom "at", .atom "end", .atom "of", .atom "atom"], vlist [.atom "examples", vlist [.atom "period", vlist [.atom "quote", .atom "Woot"]]]], vlist [.atom "punctuate-atom", .atom "a", .atom "PERIOD"]],
  vlist [.atom "defn", .atom "colon", vlist [.atom "a"], vlist [.atom "doc", vlist [.atom "add", .atom "a", .atom "colon", .atom "at", .atom "end", .atom "of", .atom "atom"], vlist [.atom "examples", vlist [.atom "colon", vlist [.atom "quote", .atom "remember-this"]]]], vlist [.atom "punctuate-atom", .atom "a", .atom "COLON"]],
  vlist [.atom "defmacro", .atom "is", vlist [.atom "condition"], vlist [.atom "doc", vlist [.atom "assert", .atom "a", .atom "condition", .atom "is", .atom "truthy,", .atom "or", .atom "show", .atom "failing", .atom "code"], vlist [.atom "examples", vlist [.atom "is", .atom "t"], vlist [.atom "is", vlist [.atom "car", vlist [.atom "cons", .nil, vlist [.atom "quote", vlist [.atom "this", .atom "one", .atom "should", .atom "fail"]]]]]]], vlist [.atom "cond", vlist [vlist [.atom "or", vlist [.atom "not", vlist [.atom "list?", .atom "condition"]], vlist [.atom "not", vlist [.atom "=", vlist [.atom "quote", .atom "="], vlist [.atom "car", .atom "condition"]]], vlist [.atom "not", vlist [.atom "=", .num 3, vlist [.atom "len", .atom "condition"]]]], vlist [.atom "let", vlist [vlist [.atom "result", vlist [.atom "gensym", vlist [.atom "quote", .atom "result"]]]], vlist [.atom "syntax-quote", vlist [.atom "let", vlist [vlist [vlist [.atom "unquote", .atom "result"], vlist [.atom "unquote", .atom "condition"]]], vlist [.atom "when-not", vlist [.atom "unquote", .atom "result"], vlist [.atom "error", vlist [.atom "quote", vlist [.atom "assertion", vlist [.atom "unquote", vlist [.atom "fuse", vlist [.atom "list", vlist [.atom "quote", .atom "failed"], .atom "COLON"]]], vlist [.atom "unquote", .atom "condition"]]]]]]]]], vlist [.atom "t", vlist [.atom "let", vlist [vlist [.atom "lhs", vlist [.atom "nth", .num 1, .atom "condition"]], vlist [.atom "rhs", vlist [.atom "nth", .num 2, .atom "condition"]], vlist [.atom "lhsym", vlist [.atom "gensym", vlist [.atom "quote", .atom "lhs"]]], vlist [.atom "rhsym", vlist [.atom "gensym", vlist [.atom "quote", .atom "rhs"]]]], vlist [.atom "syntax-quote", vlist [.atom "let", vlist [vlist [vlist [.atom "unquote", .atom "lhsym"], vlist [.atom "unquote", .atom "lhs"]], vlist [vlist [.atom "unquote", .atom "rhsym"], vlist [.atom "unquote", .atom "rhs"]]], vlist [.atom "when-not", vlist [.atom "=", vlist [.atom "unquote", .atom "lhsym"], vlist [.atom "unquote", .atom "rhsym"]], vlist [.atom "error", vlist [.atom "concat", vlist [.atom "list", vlist [.atom "quote", .atom "expression"], vlist [.atom "quote", vlist [.atom "unquote", .atom "lhs"]], vlist [.atom "quote", .atom "==>"], vlist [.atom "unquote", .atom "lhsym"]], vlist [.atom "quote", vlist [.atom "is", .atom "not", .atom "equal", .atom "to"]], vlist [.atom "list", vlist [.atom "quote", .atom "expression"], vlist [.atom "quote", vlist [.atom "unquote", .atom "rhs"]], vlist [.atom "quote", .atom "==>"], vlist [.atom "unquote", .atom "rhsym"]]]]]]]]]]],
  vlist [.atom "defmacro", .atom "let*", mkList [.atom "pairs"] (.atom "body"), vlist [.atom "doc", vlist [.atom "let", .atom "form", .atom "with", .atom "ability", .atom "to", .atom "refer", .atom "to", .atom "previously-bound", .atom "pairs", .atom "in", .atom "the", .atom "binding", .atom "list"], vlist [.atom "examples", vlist [.atom "let*", vlist [vlist [.atom "a", .num 1], vlist [.atom "b", vlist [.atom "inc", .atom "a"]]], vlist [.atom "+", .atom "a", .atom "b"]]]], vlist [.atom "if-not", .atom "pairs", vlist [.atom "list*", vlist [.atom "quote", .atom "progn"], .atom "body"], vlist [.atom "syntax-quote", vlist [.atom "let", vlist [vlist [.atom "unquote", vlist [.atom "car", .atom "pairs"]]], vlist [.atom "let*", vlist [vlist [.atom "splicing-unquote", vlist [.atom "cdr", .atom "pairs"]]], vlist [.atom "splicing-unquote", .atom "body"]]]]]],
  vlist [.atom "def", .atom "first", .atom "car"],
  vlist [.atom "defn", .atom "second", vlist [.atom "l"], vlist [.atom "doc", vlist [.atom "return", .atom "the", .atom "second", .atom "element", .atom "of", .atom "a", .atom "list,", .atom "or", .nil, .atom "if", .atom "not", .atom "enough", .atom "elements"], vlist [.atom "examples", vlist [.atom "second", .nil], vlist [.atom "second", vlist [.atom "quote", vlist [.atom "a"]]], vlist [.atom "second", vlist [.atom "quote", vlist [.atom "a", .atom "b"]]], vlist [.atom "second", vlist [.atom "quote", vlist [.num 1, .num 2, .num 3]]]]], vlist [.atom "car", vlist [.atom "cdr", .atom "l"]]],
  vlist [.atom "defn", .atom "comp", mkList [.nil] (.atom "fs"), vlist [.atom "doc", vlist [.atom "function", .atom "composition", .atom "--", .atom "return", .atom "a", .atom "function", .atom "which", .atom "applies", .atom "a", .atom "series", .atom "of", .atom "functions", .atom "in", .atom "reverse", .atom "order"], vlist [.atom "examples", vlist [vlist [.atom "comp"], vlist [.atom "quote", .atom "hello"]], vlist [vlist [.atom "comp", .atom "split"], vlist [.atom "quote", .atom "hello"]], vlist [vlist [.atom "comp", .atom "len", .atom "split"], vlist [.atom "quote", .atom "hello"]], vlist [vlist [.atom "comp", vlist [.atom "partial", .atom "apply", .atom "+"], vlist [.atom "partial", .atom "map", .atom "len"], vlist [.atom "partial", .atom "map", .atom "split"]], vlist [.atom "quote", vlist [.atom "hello", .atom "world"]]]]], vlist [.atom "let", vlist [vlist [.atom "n", vlist [.atom "len", .atom "fs"]], vlist [.atom "f", vlist [.atom "car", .atom "fs"]], vlist [.atom "g", vlist [.atom "second", .atom "fs"]]], vlist [.atom "cond", vlist [vlist [.atom "zero?", .atom "n"], .atom "identity"], vlist [vlist [.atom "=", .atom "n", .num 1], .atom "f"], vlist [vlist [.atom "=", .atom "n", .num 2], vlist [.atom "lambda", mkList [.nil] (.atom "xs"), vlist [.atom "f", vlist [.atom "apply", .atom "g", .atom "xs"]]]], vlist [.atom "t", vlist [.atom "reduce", .atom "comp", vlist [.atom "list*", .atom "f", .atom "g", vlist [.atom "cdr", vlist [.atom "cdr", .atom "fs"]]]]]]]],
  vlist [.atom "defn", .atom "partial", mkList [.atom "f"] (.atom "args"), vlist [.atom "doc", vlist [.atom "partial", .atom "function", .atom "application"], vlist [.atom "return", .atom "a", .atom "new", .atom "function", .atom "which", .atom "wraps", .atom "the", .atom "supplied", .atom "arguments"], vlist [.atom "examples", vlist [vlist [.atom "partial", .atom "+", .num 1], .num 1], vlist [vlist [.atom "partial", .atom "+", .num 2, .num 3], .num 4, .num 5]]], vlist [.atom "lambda", mkList [.nil] (.atom "more"), vlist [.atom "apply", .atom "f", vlist [.atom "concat", .atom "args", .atom "more"]]]],
  vlist [.atom "defn", .atom "max", mkList [.nil] (.atom "args"), vlist [.atom "doc", vlist [.atom "find", .atom "maximum", .atom "of", .atom "one", .atom "or", .atom "more", .atom "numbers"], vlist [.atom "examples", vlist [.atom "max", .num (-5)], vlist [.atom "max", .num 2, .num 3], vlist [.atom "apply", .atom "max", vlist [.atom "range", .num 10]]]], vlist [.atom "let", vlist [vlist [.atom "n", vlist [.atom "len", .atom "args"]], vlist [.atom "n1", vlist [.atom "first", .atom "args"]], vlist [.atom "n2", vlist [.atom "second", .atom "args"]]], vlist [.atom "cond", vlist [vlist [.atom "zero?", .atom "n"], vlist [.atom "error", vlist [.atom "quote", vlist [.atom "max", .atom "needs", .atom "at", .atom "least", .atom "one", .atom "number"]]]], vlist [vlist [.atom "=", .num 1, .atom "n"], .atom "n1"], vlist [vlist [.atom "=", .num 2, .atom "n"], vlist [.atom "if", vlist [.atom "<", .atom "n1", .atom "n2"], .atom "n2", .atom "n1"]], vlist [.atom "t", vlist [.atom "reduce", .atom "max", vlist [.atom "max", .atom "n1", .atom "n2"], vlist [.atom "cdr", vlist [.atom "cdr", .atom "args"]]]]]]],
  vlist [.atom "defn", .atom "min", mkList [.nil] (.atom "args"), vlist [.atom "doc", vlist [.atom "find", .atom "minimum", .atom "of", .atom "one", .atom "or", .atom "more", .atom "numbers"], vlist [.atom "examples", vlist [.atom "min", .num (-5)], vlist [.atom "min", .num 2, .num 3], vlist [.atom "apply", .atom "min", vlist [.atom "range", .num 10]]]], vlist [.atom "let", vlist [vlist [.atom "n", vlist [.atom "len", .atom "args"]], vlist [.atom "n1", vlist [.atom "first", .atom "args"]], vlist [.atom "n2", vlist [.atom "second", .atom "args"]]], vlist [.atom "cond", vlist [vlist [.atom "zero?", .atom "n"], vlist [.atom "error", vlist [.atom "quote", vlist [.atom "min", .atom "needs", .atom "at", .atom "least", .atom "one", .atom "number"]]]], vlist [vlist [.atom "=", .num 1, .atom "n"], .atom "n1"], vlist [vlist [.atom "=", .num 2, .atom "n"], vlist [.atom "if", vlist [.atom "<", .atom "n2", .atom "n1"], .atom "n2", .atom "n1"]], vlist [.atom "t", vlist [.atom "reduce", .atom "min", vlist [.atom "min", .atom "n1", .atom "n2"], vlist [.atom "cdr", vlist [.atom "cdr", .atom "args"]]]]]]],
  vlist [.atom "defn", .atom "not=", mkList [.nil] (.atom "terms"), vlist [.atom "doc", vlist [.atom "complement", .atom "of", .atom "=", .atom "function"], vlist [.atom "examples", vlist [.atom "not=", .num 1, .num 2], vlist [.atom "not=", vlist [.atom "quote", .atom "a"], vlist [.atom "quote", .atom "a"]]]], vlist [.atom "not", vlist [.atom "apply", .atom "=", .atom "terms"]]],
  vlist [.atom "defn", .atom "interpose", vlist [.atom "x", .atom "l"], vlist [.atom "doc", vlist [.atom "interpose", .atom "x", .atom "between", .atom "all", .atom "elements", .atom "of", .atom "l"], vlist [.atom "examples", vlist [.atom "interpose", .atom "BANG", vlist [.atom "range", .num 5]]]], vlist [.atom "cond", vlist [vlist [.atom "not", .atom "l"], .nil], vlist [vlist [.atom "not", vlist [.atom "cdr", .atom "l"]], .atom "l"], vlist [.atom "t", vlist [.atom "cons", vlist [.atom "car", .atom "l"], vlist [.atom "cons", .atom "x", vlist [.atom "interpose", .atom "x", vlist [.atom "cdr", .atom "l"]]]]]]],
  vlist [.atom "defn", .atom "enumerate", vlist [.atom "l"], vlist [.atom "doc", vlist [.atom "returning", .atom "list", .atom "of", vlist [.atom "i,", .atom "x"], .atom "pairs", .atom "where", .atom "i", .atom "is", .atom "the", .atom "index", vlist [.atom "from", .atom "zero"], .atom "and", .atom "x", .atom "is", .atom "the", .atom "original", .atom "element", .atom "from", .atom "l"], vlist [.atom "examples", vlist [.atom "enumerate", vlist [.atom "quote", vlist [.atom "a", .atom "b", .atom "c"]]]]], vlist [.atom "let", vlist [vlist [.atom "c", .num 0], vlist [.atom "ret", .nil]], vlist [.atom "foreach", .atom "x", .atom "l", vlist [.atom "set!", .atom "ret", vlist [.atom "cons", vlist [.atom "list", .atom "c", .atom "x"], .atom "ret"]], vlist [.atom "set!", .atom "c", vlist [.atom "inc", .atom "c"]]], vlist [.atom "reverse", .atom "ret"]]],
  vlist [.atom "defn", .atom "abs", vlist [.atom "x"], vlist [.atom "doc", vlist [.atom "return", .atom "absolute", .atom "value", .atom "of", .atom "x"], vlist [.atom "examples", vlist [.atom "abs", .num 1], vlist [.atom "abs", .num (-100)]]], vlist [.atom "if", vlist [.atom "neg?", .atom "x"], vlist [.atom "-", .atom "x"], .atom "x"]]]

/-- What each name of the core library is bound to once it is loaded (lisp/l1.l1; `range` is defined twice, the second definition replaces the first). -/
def coreDefs : List (String × Val) := [
  ("pi100", .num 3141592653589793238462643383279502884197169399375105820974944592307816406286208998628034825342117067),
  ("identity", k_identity),
  ("concat2", k_concat2),
  ("c*r", k_cStarr),
  ("if", k_if),
  ("if-not", k_if_not),
  ("comment", k_comment),
  ("progn", k_progn),
  ("when", k_when),
  ("when-not", k_when_not),
  ("foreach", k_foreach),
  ("reduce", k_reduce),
  ("concat", k_concat),
  ("reverse", k_reverse),
  ("zero?", k_zeroP),
  ("neg?", k_negP),
  ("juxt", k_juxt),
  ("pos?", k_posP),
  ("inc", k_inc),
  ("dec", k_dec),
  ("range", k_range'),
  ("while", k_while),
  ("nth", k_nth),
  ("last", k_last),
  ("take", k_take),
  ("drop", k_drop),
  ("complement", k_complement),
  ("even?", k_evenP),
  ("odd?", k_oddP),
  ("flatten", k_flatten),
  ("constantly", k_constantly),
  ("repeat", k_repeat),
  ("repeatedly", k_repeatedly),
  ("true?", k_trueP),
  ("map", k_map),
  ("mapcat", k_mapcat),
  ("filter", k_filter),
  ("remove", k_remove),
  ("**", k_StarStar),
  ("capitalize", k_capitalize),
  ("randigits", k_randigits),
  ("randchoice", k_randchoice),
  ("randalpha", k_randalpha),
  ("dotimes", k_dotimes),
  ("butlast", k_butlast),
  ("punctuate", k_punctuate),
  ("tosentence", k_tosentence),
  ("exclaim", k_exclaim),
  ("list*", k_listStar),
  ("with-screen", k_with_screen),
  ("some", k_some),
  ("every", k_every),
  ("punctuate-atom", k_punctuate_atom),
  ("bang", k_bang),
  ("comma", k_comma),
  ("period", k_period),
  ("colon", k_colon),
  ("is", k_is),
  ("let*", k_letStar),
  ("first", .bi .car),
  ("second", k_second),
  ("comp", k_comp),
  ("partial", k_partial),
  ("max", k_max),
  ("min", k_min),
  ("not=", k_notEq),
  ("interpose", k_interpose),
  ("enumerate", k_enumerate),
  ("abs", k_abs)]

end L1
