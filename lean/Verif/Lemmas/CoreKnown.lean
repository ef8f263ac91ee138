import Verif.Lemmas.Core
/-
GENERATED by scripts/gen_core.py; do not edit.  What each name means to the core library.
-/
set_option autoImplicit false
namespace L1

/-- The name `a`, not bound locally, stands for the function `f`. -/
structure Head (a : String) (f : Val) : Prop where
  val : coreVal a = some f
  notMacro : f.notMacro = true
  special : specialOf a = none
  cxr : isCxr a = false
  t : a ≠ "t"

theorem known_quote : known "quote" = some none := by decide +kernel
theorem known_syntax_quote : known "syntax-quote" = some none := by decide +kernel
theorem known_test : known "test" = some none := by decide +kernel
theorem known_cond : known "cond" = some none := by decide +kernel
theorem known_and : known "and" = some none := by decide +kernel
theorem known_or : known "or" = some none := by decide +kernel
theorem known_loop : known "loop" = some none := by decide +kernel
theorem known_swallow : known "swallow" = some none := by decide +kernel
theorem known_def : known "def" = some none := by decide +kernel
theorem known_setB : known "set!" = some none := by decide +kernel
theorem known_defn : known "defn" = some none := by decide +kernel
theorem known_defmacro : known "defmacro" = some none := by decide +kernel
theorem known_error : known "error" = some none := by decide +kernel
theorem known_errors : known "errors" = some none := by decide +kernel
theorem known_try : known "try" = some none := by decide +kernel
theorem known_let : known "let" = some none := by decide +kernel
theorem known_lambda : known "lambda" = some none := by decide +kernel
theorem hd_plus : Head "+" (.bi .add) := by refine ⟨?_, ?_, ?_, ?_, ?_⟩ <;> decide +kernel
theorem hd_minus : Head "-" (.bi .sub) := by refine ⟨?_, ?_, ?_, ?_, ?_⟩ <;> decide +kernel
theorem hd_times : Head "*" (.bi .mul) := by refine ⟨?_, ?_, ?_, ?_, ?_⟩ <;> decide +kernel
theorem hd_div : Head "/" (.bi .div) := by refine ⟨?_, ?_, ?_, ?_, ?_⟩ <;> decide +kernel
theorem hd_eq : Head "=" (.bi .eq) := by refine ⟨?_, ?_, ?_, ?_, ?_⟩ <;> decide +kernel
theorem hd_rem : Head "rem" (.bi .rem) := by refine ⟨?_, ?_, ?_, ?_, ?_⟩ <;> decide +kernel
theorem hd_lt : Head "<" (.bi .lt) := by refine ⟨?_, ?_, ?_, ?_, ?_⟩ <;> decide +kernel
theorem hd_le : Head "<=" (.bi .le) := by refine ⟨?_, ?_, ?_, ?_, ?_⟩ <;> decide +kernel
theorem hd_gt : Head ">" (.bi .gt) := by refine ⟨?_, ?_, ?_, ?_, ?_⟩ <;> decide +kernel
theorem hd_ge : Head ">=" (.bi .ge) := by refine ⟨?_, ?_, ?_, ?_, ?_⟩ <;> decide +kernel
theorem hd_apply : Head "apply" (.bi .apply) := by refine ⟨?_, ?_, ?_, ?_, ?_⟩ <;> decide +kernel
theorem hd_atomP : Head "atom?" (.bi .atomP) := by refine ⟨?_, ?_, ?_, ?_, ?_⟩ <;> decide +kernel
theorem hd_body : Head "body" (.bi .body) := by refine ⟨?_, ?_, ?_, ?_, ?_⟩ <;> decide +kernel
theorem hd_car : Head "car" (.bi .car) := by refine ⟨?_, ?_, ?_, ?_, ?_⟩ <;> decide +kernel
theorem hd_cdr : Head "cdr" (.bi .cdr) := by refine ⟨?_, ?_, ?_, ?_, ?_⟩ <;> decide +kernel
theorem hd_cons : Head "cons" (.bi .cons) := by refine ⟨?_, ?_, ?_, ?_, ?_⟩ <;> decide +kernel
theorem hd_doc : Head "doc" (.bi .doc) := by refine ⟨?_, ?_, ?_, ?_, ?_⟩ <;> decide +kernel
theorem hd_downcase : Head "downcase" (.bi .downcase) := by refine ⟨?_, ?_, ?_, ?_, ?_⟩ <;> decide +kernel
theorem hd_eval : Head "eval" (.bi .eval) := by refine ⟨?_, ?_, ?_, ?_, ?_⟩ <;> decide +kernel
theorem hd_exit : Head "exit" (.bi .exit) := by refine ⟨?_, ?_, ?_, ?_, ?_⟩ <;> decide +kernel
theorem hd_forms : Head "forms" (.bi .forms) := by refine ⟨?_, ?_, ?_, ?_, ?_⟩ <;> decide +kernel
theorem hd_fuse : Head "fuse" (.bi .fuse) := by refine ⟨?_, ?_, ?_, ?_, ?_⟩ <;> decide +kernel
theorem hd_gensym : Head "gensym" (.bi .gensym) := by refine ⟨?_, ?_, ?_, ?_, ?_⟩ <;> decide +kernel
theorem hd_help : Head "help" (.bi .help) := by refine ⟨?_, ?_, ?_, ?_, ?_⟩ <;> decide +kernel
theorem hd_isqrt : Head "isqrt" (.bi .isqrt) := by refine ⟨?_, ?_, ?_, ?_, ?_⟩ <;> decide +kernel
theorem hd_len : Head "len" (.bi .len) := by refine ⟨?_, ?_, ?_, ?_, ?_⟩ <;> decide +kernel
theorem hd_list : Head "list" (.bi .list) := by refine ⟨?_, ?_, ?_, ?_, ?_⟩ <;> decide +kernel
theorem hd_listP : Head "list?" (.bi .listP) := by refine ⟨?_, ?_, ?_, ?_, ?_⟩ <;> decide +kernel
theorem hd_load : Head "load" (.bi .load) := by refine ⟨?_, ?_, ?_, ?_, ?_⟩ <;> decide +kernel
theorem hd_macroexpand_1 : Head "macroexpand-1" (.bi .macroexpand1) := by refine ⟨?_, ?_, ?_, ?_, ?_⟩ <;> decide +kernel
theorem hd_not : Head "not" (.bi .not) := by refine ⟨?_, ?_, ?_, ?_, ?_⟩ <;> decide +kernel
theorem hd_numberP : Head "number?" (.bi .numberP) := by refine ⟨?_, ?_, ?_, ?_, ?_⟩ <;> decide +kernel
theorem hd_print : Head "print" (.bi .print) := by refine ⟨?_, ?_, ?_, ?_, ?_⟩ <;> decide +kernel
theorem hd_println : Head "println" (.bi .println) := by refine ⟨?_, ?_, ?_, ?_, ?_⟩ <;> decide +kernel
theorem hd_printl : Head "printl" (.bi .printl) := by refine ⟨?_, ?_, ?_, ?_, ?_⟩ <;> decide +kernel
theorem hd_randint : Head "randint" (.bi .randint) := by refine ⟨?_, ?_, ?_, ?_, ?_⟩ <;> decide +kernel
theorem hd_readlist : Head "readlist" (.bi .readlist) := by refine ⟨?_, ?_, ?_, ?_, ?_⟩ <;> decide +kernel
theorem hd_screen_start : Head "screen-start" (.bi .screenStart) := by refine ⟨?_, ?_, ?_, ?_, ?_⟩ <;> decide +kernel
theorem hd_screen_end : Head "screen-end" (.bi .screenEnd) := by refine ⟨?_, ?_, ?_, ?_, ?_⟩ <;> decide +kernel
theorem hd_screen_size : Head "screen-size" (.bi .screenSize) := by refine ⟨?_, ?_, ?_, ?_, ?_⟩ <;> decide +kernel
theorem hd_screen_clear : Head "screen-clear" (.bi .screenClear) := by refine ⟨?_, ?_, ?_, ?_, ?_⟩ <;> decide +kernel
theorem hd_screen_get_key : Head "screen-get-key" (.bi .screenGetKey) := by refine ⟨?_, ?_, ?_, ?_, ?_⟩ <;> decide +kernel
theorem hd_screen_write : Head "screen-write" (.bi .screenWrite) := by refine ⟨?_, ?_, ?_, ?_, ?_⟩ <;> decide +kernel
theorem hd_shell : Head "shell" (.bi .shell) := by refine ⟨?_, ?_, ?_, ?_, ?_⟩ <;> decide +kernel
theorem hd_shuffle : Head "shuffle" (.bi .shuffle) := by refine ⟨?_, ?_, ?_, ?_, ?_⟩ <;> decide +kernel
theorem hd_sleep : Head "sleep" (.bi .sleep) := by refine ⟨?_, ?_, ?_, ?_, ?_⟩ <;> decide +kernel
theorem hd_sort : Head "sort" (.bi .sort) := by refine ⟨?_, ?_, ?_, ?_, ?_⟩ <;> decide +kernel
theorem hd_sort_by : Head "sort-by" (.bi .sortBy) := by refine ⟨?_, ?_, ?_, ?_, ?_⟩ <;> decide +kernel
theorem hd_source : Head "source" (.bi .source) := by refine ⟨?_, ?_, ?_, ?_, ?_⟩ <;> decide +kernel
theorem hd_split : Head "split" (.bi .split) := by refine ⟨?_, ?_, ?_, ?_, ?_⟩ <;> decide +kernel
theorem hd_upcase : Head "upcase" (.bi .upcase) := by refine ⟨?_, ?_, ?_, ?_, ?_⟩ <;> decide +kernel
theorem hd_version : Head "version" (.bi .version) := by refine ⟨?_, ?_, ?_, ?_, ?_⟩ <;> decide +kernel
theorem known_identity : known "identity" = some (some k_identity) := by decide +kernel
theorem hd_identity : Head "identity" k_identity := by refine ⟨?_, ?_, ?_, ?_, ?_⟩ <;> decide +kernel
theorem known_concat2 : known "concat2" = some (some k_concat2) := by decide +kernel
theorem hd_concat2 : Head "concat2" k_concat2 := by refine ⟨?_, ?_, ?_, ?_, ?_⟩ <;> decide +kernel
theorem known_cStarr : known "c*r" = some (some k_cStarr) := by decide +kernel
theorem hd_cStarr : Head "c*r" k_cStarr := by refine ⟨?_, ?_, ?_, ?_, ?_⟩ <;> decide +kernel
theorem known_if : known "if" = some (some k_if) := by decide +kernel
theorem known_if_not : known "if-not" = some (some k_if_not) := by decide +kernel
theorem known_comment : known "comment" = some (some k_comment) := by decide +kernel
theorem known_progn : known "progn" = some (some k_progn) := by decide +kernel
theorem known_when : known "when" = some (some k_when) := by decide +kernel
theorem known_when_not : known "when-not" = some (some k_when_not) := by decide +kernel
theorem known_foreach : known "foreach" = some (some k_foreach) := by decide +kernel
theorem known_reduce : known "reduce" = some (some k_reduce) := by decide +kernel
theorem hd_reduce : Head "reduce" k_reduce := by refine ⟨?_, ?_, ?_, ?_, ?_⟩ <;> decide +kernel
theorem known_concat : known "concat" = some (some k_concat) := by decide +kernel
theorem hd_concat : Head "concat" k_concat := by refine ⟨?_, ?_, ?_, ?_, ?_⟩ <;> decide +kernel
theorem known_reverse : known "reverse" = some (some k_reverse) := by decide +kernel
theorem hd_reverse : Head "reverse" k_reverse := by refine ⟨?_, ?_, ?_, ?_, ?_⟩ <;> decide +kernel
theorem known_zeroP : known "zero?" = some (some k_zeroP) := by decide +kernel
theorem hd_zeroP : Head "zero?" k_zeroP := by refine ⟨?_, ?_, ?_, ?_, ?_⟩ <;> decide +kernel
theorem known_negP : known "neg?" = some (some k_negP) := by decide +kernel
theorem hd_negP : Head "neg?" k_negP := by refine ⟨?_, ?_, ?_, ?_, ?_⟩ <;> decide +kernel
theorem known_juxt : known "juxt" = some (some k_juxt) := by decide +kernel
theorem hd_juxt : Head "juxt" k_juxt := by refine ⟨?_, ?_, ?_, ?_, ?_⟩ <;> decide +kernel
theorem known_posP : known "pos?" = some (some k_posP) := by decide +kernel
theorem hd_posP : Head "pos?" k_posP := by refine ⟨?_, ?_, ?_, ?_, ?_⟩ <;> decide +kernel
theorem known_inc : known "inc" = some (some k_inc) := by decide +kernel
theorem hd_inc : Head "inc" k_inc := by refine ⟨?_, ?_, ?_, ?_, ?_⟩ <;> decide +kernel
theorem known_dec : known "dec" = some (some k_dec) := by decide +kernel
theorem hd_dec : Head "dec" k_dec := by refine ⟨?_, ?_, ?_, ?_, ?_⟩ <;> decide +kernel
theorem known_range : known "range" = some (some k_range') := by decide +kernel
theorem hd_range : Head "range" k_range' := by refine ⟨?_, ?_, ?_, ?_, ?_⟩ <;> decide +kernel
theorem known_while : known "while" = some (some k_while) := by decide +kernel
theorem known_nth : known "nth" = some (some k_nth) := by decide +kernel
theorem hd_nth : Head "nth" k_nth := by refine ⟨?_, ?_, ?_, ?_, ?_⟩ <;> decide +kernel
theorem known_last : known "last" = some (some k_last) := by decide +kernel
theorem hd_last : Head "last" k_last := by refine ⟨?_, ?_, ?_, ?_, ?_⟩ <;> decide +kernel
theorem known_take : known "take" = some (some k_take) := by decide +kernel
theorem hd_take : Head "take" k_take := by refine ⟨?_, ?_, ?_, ?_, ?_⟩ <;> decide +kernel
theorem known_drop : known "drop" = some (some k_drop) := by decide +kernel
theorem hd_drop : Head "drop" k_drop := by refine ⟨?_, ?_, ?_, ?_, ?_⟩ <;> decide +kernel
theorem known_complement : known "complement" = some (some k_complement) := by decide +kernel
theorem hd_complement : Head "complement" k_complement := by refine ⟨?_, ?_, ?_, ?_, ?_⟩ <;> decide +kernel
theorem known_evenP : known "even?" = some (some k_evenP) := by decide +kernel
theorem hd_evenP : Head "even?" k_evenP := by refine ⟨?_, ?_, ?_, ?_, ?_⟩ <;> decide +kernel
theorem known_oddP : known "odd?" = some (some k_oddP) := by decide +kernel
theorem hd_oddP : Head "odd?" k_oddP := by refine ⟨?_, ?_, ?_, ?_, ?_⟩ <;> decide +kernel
theorem known_flatten : known "flatten" = some (some k_flatten) := by decide +kernel
theorem hd_flatten : Head "flatten" k_flatten := by refine ⟨?_, ?_, ?_, ?_, ?_⟩ <;> decide +kernel
theorem known_constantly : known "constantly" = some (some k_constantly) := by decide +kernel
theorem hd_constantly : Head "constantly" k_constantly := by refine ⟨?_, ?_, ?_, ?_, ?_⟩ <;> decide +kernel
theorem known_repeat : known "repeat" = some (some k_repeat) := by decide +kernel
theorem hd_repeat : Head "repeat" k_repeat := by refine ⟨?_, ?_, ?_, ?_, ?_⟩ <;> decide +kernel
theorem known_repeatedly : known "repeatedly" = some (some k_repeatedly) := by decide +kernel
theorem hd_repeatedly : Head "repeatedly" k_repeatedly := by refine ⟨?_, ?_, ?_, ?_, ?_⟩ <;> decide +kernel
theorem known_trueP : known "true?" = some (some k_trueP) := by decide +kernel
theorem hd_trueP : Head "true?" k_trueP := by refine ⟨?_, ?_, ?_, ?_, ?_⟩ <;> decide +kernel
theorem known_map : known "map" = some (some k_map) := by decide +kernel
theorem hd_map : Head "map" k_map := by refine ⟨?_, ?_, ?_, ?_, ?_⟩ <;> decide +kernel
theorem known_mapcat : known "mapcat" = some (some k_mapcat) := by decide +kernel
theorem hd_mapcat : Head "mapcat" k_mapcat := by refine ⟨?_, ?_, ?_, ?_, ?_⟩ <;> decide +kernel
theorem known_filter : known "filter" = some (some k_filter) := by decide +kernel
theorem hd_filter : Head "filter" k_filter := by refine ⟨?_, ?_, ?_, ?_, ?_⟩ <;> decide +kernel
theorem known_remove : known "remove" = some (some k_remove) := by decide +kernel
theorem hd_remove : Head "remove" k_remove := by refine ⟨?_, ?_, ?_, ?_, ?_⟩ <;> decide +kernel
theorem known_StarStar : known "**" = some (some k_StarStar) := by decide +kernel
theorem hd_StarStar : Head "**" k_StarStar := by refine ⟨?_, ?_, ?_, ?_, ?_⟩ <;> decide +kernel
theorem known_capitalize : known "capitalize" = some (some k_capitalize) := by decide +kernel
theorem hd_capitalize : Head "capitalize" k_capitalize := by refine ⟨?_, ?_, ?_, ?_, ?_⟩ <;> decide +kernel
theorem known_randigits : known "randigits" = some (some k_randigits) := by decide +kernel
theorem hd_randigits : Head "randigits" k_randigits := by refine ⟨?_, ?_, ?_, ?_, ?_⟩ <;> decide +kernel
theorem known_randchoice : known "randchoice" = some (some k_randchoice) := by decide +kernel
theorem hd_randchoice : Head "randchoice" k_randchoice := by refine ⟨?_, ?_, ?_, ?_, ?_⟩ <;> decide +kernel
theorem known_randalpha : known "randalpha" = some (some k_randalpha) := by decide +kernel
theorem hd_randalpha : Head "randalpha" k_randalpha := by refine ⟨?_, ?_, ?_, ?_, ?_⟩ <;> decide +kernel
theorem known_dotimes : known "dotimes" = some (some k_dotimes) := by decide +kernel
theorem known_butlast : known "butlast" = some (some k_butlast) := by decide +kernel
theorem hd_butlast : Head "butlast" k_butlast := by refine ⟨?_, ?_, ?_, ?_, ?_⟩ <;> decide +kernel
theorem known_punctuate : known "punctuate" = some (some k_punctuate) := by decide +kernel
theorem hd_punctuate : Head "punctuate" k_punctuate := by refine ⟨?_, ?_, ?_, ?_, ?_⟩ <;> decide +kernel
theorem known_tosentence : known "tosentence" = some (some k_tosentence) := by decide +kernel
theorem hd_tosentence : Head "tosentence" k_tosentence := by refine ⟨?_, ?_, ?_, ?_, ?_⟩ <;> decide +kernel
theorem known_exclaim : known "exclaim" = some (some k_exclaim) := by decide +kernel
theorem hd_exclaim : Head "exclaim" k_exclaim := by refine ⟨?_, ?_, ?_, ?_, ?_⟩ <;> decide +kernel
theorem known_listStar : known "list*" = some (some k_listStar) := by decide +kernel
theorem hd_listStar : Head "list*" k_listStar := by refine ⟨?_, ?_, ?_, ?_, ?_⟩ <;> decide +kernel
theorem known_with_screen : known "with-screen" = some (some k_with_screen) := by decide +kernel
theorem known_some : known "some" = some (some k_some) := by decide +kernel
theorem hd_some : Head "some" k_some := by refine ⟨?_, ?_, ?_, ?_, ?_⟩ <;> decide +kernel
theorem known_every : known "every" = some (some k_every) := by decide +kernel
theorem hd_every : Head "every" k_every := by refine ⟨?_, ?_, ?_, ?_, ?_⟩ <;> decide +kernel
theorem known_punctuate_atom : known "punctuate-atom" = some (some k_punctuate_atom) := by decide +kernel
theorem hd_punctuate_atom : Head "punctuate-atom" k_punctuate_atom := by refine ⟨?_, ?_, ?_, ?_, ?_⟩ <;> decide +kernel
theorem known_bang : known "bang" = some (some k_bang) := by decide +kernel
theorem hd_bang : Head "bang" k_bang := by refine ⟨?_, ?_, ?_, ?_, ?_⟩ <;> decide +kernel
theorem known_comma : known "comma" = some (some k_comma) := by decide +kernel
theorem hd_comma : Head "comma" k_comma := by refine ⟨?_, ?_, ?_, ?_, ?_⟩ <;> decide +kernel
theorem known_period : known "period" = some (some k_period) := by decide +kernel
theorem hd_period : Head "period" k_period := by refine ⟨?_, ?_, ?_, ?_, ?_⟩ <;> decide +kernel
theorem known_colon : known "colon" = some (some k_colon) := by decide +kernel
theorem hd_colon : Head "colon" k_colon := by refine ⟨?_, ?_, ?_, ?_, ?_⟩ <;> decide +kernel
theorem known_is : known "is" = some (some k_is) := by decide +kernel
theorem known_letStar : known "let*" = some (some k_letStar) := by decide +kernel
theorem hd_first : Head "first" (.bi .car) := by refine ⟨?_, ?_, ?_, ?_, ?_⟩ <;> decide +kernel
theorem known_second : known "second" = some (some k_second) := by decide +kernel
theorem hd_second : Head "second" k_second := by refine ⟨?_, ?_, ?_, ?_, ?_⟩ <;> decide +kernel
theorem known_comp : known "comp" = some (some k_comp) := by decide +kernel
theorem hd_comp : Head "comp" k_comp := by refine ⟨?_, ?_, ?_, ?_, ?_⟩ <;> decide +kernel
theorem known_partial : known "partial" = some (some k_partial) := by decide +kernel
theorem hd_partial : Head "partial" k_partial := by refine ⟨?_, ?_, ?_, ?_, ?_⟩ <;> decide +kernel
theorem known_max : known "max" = some (some k_max) := by decide +kernel
theorem hd_max : Head "max" k_max := by refine ⟨?_, ?_, ?_, ?_, ?_⟩ <;> decide +kernel
theorem known_min : known "min" = some (some k_min) := by decide +kernel
theorem hd_min : Head "min" k_min := by refine ⟨?_, ?_, ?_, ?_, ?_⟩ <;> decide +kernel
theorem known_notEq : known "not=" = some (some k_notEq) := by decide +kernel
theorem hd_notEq : Head "not=" k_notEq := by refine ⟨?_, ?_, ?_, ?_, ?_⟩ <;> decide +kernel
theorem known_interpose : known "interpose" = some (some k_interpose) := by decide +kernel
theorem hd_interpose : Head "interpose" k_interpose := by refine ⟨?_, ?_, ?_, ?_, ?_⟩ <;> decide +kernel
theorem known_enumerate : known "enumerate" = some (some k_enumerate) := by decide +kernel
theorem hd_enumerate : Head "enumerate" k_enumerate := by refine ⟨?_, ?_, ?_, ?_, ?_⟩ <;> decide +kernel
theorem known_abs : known "abs" = some (some k_abs) := by decide +kernel
theorem hd_abs : Head "abs" k_abs := by refine ⟨?_, ?_, ?_, ?_, ?_⟩ <;> decide +kernel

end L1
