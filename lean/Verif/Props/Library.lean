import Verif.Lemmas.CoreGives
import Verif.Lemmas.CoreEnum
import Verif.Lemmas.CoreLoad
/-
C39, C40: the functions of the core library.  `CoreAt s.heap 0`: in state `s` the library is loaded and its names have their original meaning at top
level (Verif/Spec/Core.lean).  `Gives W s name vs v`: a call `(name arg ...)`, from any scope that sees the library's `name`, whose arguments evaluate
to `vs` leaving the state `s`, returns `v` and has no other effect.  `Returns W s f vs v`: calling the function value `f` with `vs` returns `v` and has
no other effect.
-/
set_option autoImplicit false
namespace L1
variable {W : World} {s : St}

/-! ### C39: lists -/

theorem GivesSome.imp {s : St} {name : String} {vs : List Val} {P Q : St → Val → Prop} (h : GivesSome W s name vs P) (hpq : ∀ s1 v, P s1 v → Q s1 v) :
    GivesSome W s name vs Q := by
  intro e args s0 h1 h2
  obtain ⟨v, s', h3, h4, h5⟩ := h e args s0 h1 h2
  exact ⟨v, s', h3, h4, hpq _ _ h5⟩

/-- (concat2 xs b): the elements of `xs` followed by `b`. -/
theorem C39_concat2 (h : CoreAt s.heap 0) (xs ys : List Val) : Gives W s "concat2" [vlist xs, vlist ys] (vlist (xs ++ ys)) := by
  have := (ret_concat2 (W := W) h.base xs (vlist ys)).gives hd_concat2
  rwa [show mkList xs (vlist ys) = vlist (xs ++ ys) by simp [vlist, mkList_append]] at this

example (inp : List (List Char)) : Gives W (topSt (initSt inp) coreEnv) "concat2" [vlist [.num 1, .num 2], vlist [.num 3]] (vlist [.num 1, .num 2, .num 3]) :=
  C39_concat2 (coreAt_loaded _) [.num 1, .num 2] [.num 3]

/-- (concat xs ys ...): all the elements, in order, for any number of lists. -/
theorem C39_concat (h : CoreAt s.heap 0) (xss : List (List Val)) : Gives W s "concat" (xss.map vlist) (vlist xss.flatten) :=
  (ret_concat_lists h.base xss).gives hd_concat

example (inp : List (List Char)) : Gives W (topSt (initSt inp) coreEnv) "concat" [vlist [.num 1, .num 2], vlist [], vlist [.num 3]] (vlist [.num 1, .num 2, .num 3]) :=
  C39_concat (coreAt_loaded _) [[.num 1, .num 2], [], [.num 3]]

/-- The last argument of `concat` may be anything: it ends the list. -/
theorem C39_concat_dotted (h : CoreAt s.heap 0) (xss : List (List Val)) (b : Val) : Gives W s "concat" (xss.map vlist ++ [b]) (mkList xss.flatten b) :=
  (ret_concat h.base xss b).gives hd_concat

theorem C39_reverse (h : CoreAt s.heap 0) (xs : List Val) : Gives W s "reverse" [vlist xs] (vlist xs.reverse) := (ret_reverse h.base xs).gives hd_reverse

/-- (nth n xs), counting from 0; () if there is no such element. -/
theorem C39_nth (h : CoreAt s.heap 0) (n : Nat) (xs : List Val) : Gives W s "nth" [.num n, vlist xs] ((xs[n]?).getD .nil) := by
  have := (ret_nth (W := W) h.base n xs).gives hd_nth
  rwa [List.getD_eq_getElem?_getD] at this

example (inp : List (List Char)) : Gives W (topSt (initSt inp) coreEnv) "nth" [.num 1, vlist [.num 10, .num 20]] (.num 20) :=
  C39_nth (coreAt_loaded _) 1 [.num 10, .num 20]

theorem C39_nth_negative (h : CoreAt s.heap 0) (n : Int) (hn : n < 0) (xs : List Val) : Gives W s "nth" [.num n, vlist xs] .nil :=
  (ret_nth_neg h.base n hn xs).gives hd_nth

example (inp : List (List Char)) : Gives W (topSt (initSt inp) coreEnv) "nth" [.num (-1), vlist [.num 10, .num 20]] (.nil) :=
  C39_nth_negative (coreAt_loaded _) (-1) (by decide) [.num 10, .num 20]

/-- (last xs); () of the empty list. -/
theorem C39_last (h : CoreAt s.heap 0) (xs : List Val) : Gives W s "last" [vlist xs] (xs.getLast?.getD .nil) := by
  have := (ret_last (W := W) h.base xs).gives hd_last
  rwa [List.getLastD_eq_getLast?] at this

theorem C39_first (xs : List Val) : Gives W s "first" [vlist xs] (xs.head?.getD .nil) := by
  cases xs with
  | nil => exact (Returns.bi (W := W) (b := .car) fun _ _ _ => rfl).gives hd_first
  | cons x xs => exact (Returns.bi (W := W) (b := .car) fun _ _ _ => rfl).gives hd_first

example (inp : List (List Char)) : Gives W (topSt (initSt inp) coreEnv) "first" [vlist [.num 10, .num 20]] (.num 10) :=
  C39_first [.num 10, .num 20]

theorem C39_second (h : CoreAt s.heap 0) (xs : List Val) : Gives W s "second" [vlist xs] ((xs[1]?).getD .nil) := by
  have := (ret_second (W := W) h.base xs).gives hd_second
  rwa [List.getD_eq_getElem?_getD] at this

example (inp : List (List Char)) : Gives W (topSt (initSt inp) coreEnv) "second" [vlist [.num 10, .num 20]] (.num 20) :=
  C39_second (coreAt_loaded _) [.num 10, .num 20]

theorem C39_take (h : CoreAt s.heap 0) (n : Nat) (xs : List Val) : Gives W s "take" [.num n, vlist xs] (vlist (xs.take n)) :=
  (ret_take h.base n xs).gives hd_take

example (inp : List (List Char)) : Gives W (topSt (initSt inp) coreEnv) "take" [.num 2, vlist [.num 1, .num 2, .num 3]] (vlist [.num 1, .num 2]) :=
  C39_take (coreAt_loaded _) 2 [.num 1, .num 2, .num 3]

/-- A negative number takes everything. -/
theorem C39_take_negative (h : CoreAt s.heap 0) (n : Int) (hn : n < 0) (xs : List Val) : Gives W s "take" [.num n, vlist xs] (vlist xs) :=
  (ret_take_neg h.base n hn xs).gives hd_take

theorem C39_drop (h : CoreAt s.heap 0) (n : Nat) (xs : List Val) : Gives W s "drop" [.num n, vlist xs] (vlist (xs.drop n)) :=
  (ret_drop h.base n xs).gives hd_drop

/-- A negative number drops everything, too. -/
theorem C39_drop_negative (h : CoreAt s.heap 0) (n : Int) (hn : n < 0) (xs : List Val) : Gives W s "drop" [.num n, vlist xs] .nil :=
  (ret_drop_neg h.base n hn xs).gives hd_drop

/-- What `take` takes and `drop` leaves make up the list. -/
theorem C39_take_drop (h : CoreAt s.heap 0) (n : Nat) (xs : List Val) : ∃ ys zs, Gives W s "take" [.num n, vlist xs] (vlist ys) ∧
    Gives W s "drop" [.num n, vlist xs] (vlist zs) ∧ ys ++ zs = xs :=
  ⟨_, _, C39_take h n xs, C39_drop h n xs, List.take_append_drop n xs⟩

theorem C39_butlast (h : CoreAt s.heap 0) (xs : List Val) : Gives W s "butlast" [vlist xs] (vlist xs.dropLast) := (ret_butlast h.base xs).gives hd_butlast

/-- (range n): the integers from 0 below `n`; none if `n` is negative. -/
theorem C39_range (h : CoreAt s.heap 0) (n : Int) : Gives W s "range" [.num n] (vlist ((List.range n.toNat).map fun i => .num (i : Nat))) :=
  (ret_range h.base n).gives hd_range

example (inp : List (List Char)) : Gives W (topSt (initSt inp) coreEnv) "range" [.num 3] (vlist [.num 0, .num 1, .num 2]) :=
  C39_range (coreAt_loaded _) 3

theorem C39_repeat (h : CoreAt s.heap 0) (n : Int) (x : Val) : Gives W s "repeat" [.num n, x] (vlist (List.replicate n.toNat x)) :=
  (ret_repeat h.base n x).gives hd_repeat

/-- (list* x ... l): the elements in front of the list `l`. -/
theorem C39_list_star (h : CoreAt s.heap 0) (xs ys : List Val) : Gives W s "list*" (xs ++ [vlist ys]) (vlist (xs ++ ys)) := by
  have := (ret_listStar (W := W) h.base xs (vlist ys)).gives hd_listStar
  rwa [show mkList xs (vlist ys) = vlist (xs ++ ys) by simp [vlist, mkList_append]] at this

theorem C39_interpose (h : CoreAt s.heap 0) (x : Val) (xs : List Val) : Gives W s "interpose" [x, vlist xs] (vlist (xs.intersperse x)) :=
  (ret_interpose h.base x xs).gives hd_interpose

example (inp : List (List Char)) : Gives W (topSt (initSt inp) coreEnv) "interpose" [.atom "x", vlist [.num 1, .num 2, .num 3]] (vlist [.num 1, .atom "x", .num 2, .atom "x", .num 3]) :=
  C39_interpose (coreAt_loaded _) (.atom "x") [.num 1, .num 2, .num 3]

/-- (flatten v): the atoms, numbers and functions in `v` at any depth, from left to right. -/
theorem C39_flatten (h : CoreAt s.heap 0) (v : Val) : Gives W s "flatten" [v] (vlist (leaves v)) := (ret_flatten h.base v).gives hd_flatten

/-- (enumerate xs): pairs of an index and an element. -/
theorem C39_enumerate (h : CoreAt s.heap 0) (xs : List Val) : Gives W s "enumerate" [vlist xs] (vlist (xs.zipIdx.map fun p => vlist [.num (p.2 : Nat), p.1])) := by
  have := (ret_enumerate (W := W) h.base xs).gives hd_enumerate
  have key : ∀ (c : Nat) (l : List Val), pairsFrom c l = (l.zipIdx c).map fun p => vlist [.num (p.2 : Nat), p.1] := by
    intro c l
    induction l generalizing c with
    | nil => rfl
    | cons y l ih => simp [pairsFrom, ih, List.zipIdx_cons]
  rwa [key] at this

example (inp : List (List Char)) : Gives W (topSt (initSt inp) coreEnv) "enumerate" [vlist [.atom "a", .atom "b"]] (vlist [vlist [.num 0, .atom "a"], vlist [.num 1, .atom "b"]]) :=
  C39_enumerate (coreAt_loaded _) [.atom "a", .atom "b"]

theorem C39_identity (h : CoreAt s.heap 0) (v : Val) : Gives W s "identity" [v] v := (ret_identity h.base v).gives hd_identity

example (inp : List (List Char)) : Gives W (topSt (initSt inp) coreEnv) "identity" [.atom "x"] (.atom "x") :=
  C39_identity (coreAt_loaded _) _

/-! Functions of functions: `f` returns `g x` for every element `x` (and is not a macro). -/

theorem C39_map (h : CoreAt s.heap 0) {f : Val} {g : Val → Val} (hm : f.notMacro = true) (xs : List Val) (hf : ∀ x ∈ xs, Returns W s f [x] (g x)) :
    Gives W s "map" [f, vlist xs] (vlist (xs.map g)) := (ret_map h.base hm xs hf).gives hd_map

/-- (mapcat f xs): the concatenation of the lists `f` returns. -/
theorem C39_mapcat (h : CoreAt s.heap 0) {f : Val} {g : Val → List Val} (hm : f.notMacro = true) (xs : List Val)
    (hf : ∀ x ∈ xs, Returns W s f [x] (vlist (g x))) : Gives W s "mapcat" [f, vlist xs] (vlist (xs.flatMap g)) := (ret_mapcat h.base hm xs hf).gives hd_mapcat

example (inp : List (List Char)) : Gives W (topSt (initSt inp) coreEnv) "mapcat" [.bi .list, vlist [.num 1, .num 2]] (vlist [.num 1, .num 2]) :=
  C39_mapcat (coreAt_loaded _) (g := fun x => [x]) rfl [.num 1, .num 2] fun _ _ => .bi fun _ _ _ => rfl

/-- (filter f xs): the elements for which `f` does not return (). -/
theorem C39_filter (h : CoreAt s.heap 0) {f : Val} {g : Val → Val} (hm : f.notMacro = true) (xs : List Val) (hf : ∀ x ∈ xs, Returns W s f [x] (g x)) :
    Gives W s "filter" [f, vlist xs] (vlist (xs.filter fun x => g x ≠ .nil)) := (ret_filter h.base hm xs hf).gives hd_filter

example (inp : List (List Char)) : Gives W (topSt (initSt inp) coreEnv) "filter" [.bi .not, vlist [.num 1, .nil, .num 2]] (vlist [.nil]) :=
  C39_filter (coreAt_loaded _) (g := fun x => if x = .nil then .atom "t" else .nil) rfl [.num 1, .nil, .num 2] fun x _ => .bi fun s _ _ => by cases x <;> rfl

/-- (remove f xs): the others. -/
theorem C39_remove (h : CoreAt s.heap 0) {f : Val} {g : Val → Val} (hm : f.notMacro = true) (xs : List Val) (hf : ∀ x ∈ xs, Returns W s f [x] (g x)) :
    Gives W s "remove" [f, vlist xs] (vlist (xs.filter fun x => g x = .nil)) := (ret_remove h.base hm xs hf).gives hd_remove

example (inp : List (List Char)) : Gives W (topSt (initSt inp) coreEnv) "remove" [.bi .not, vlist [.num 1, .nil, .num 2]] (vlist [.num 1, .num 2]) :=
  C39_remove (coreAt_loaded _) (g := fun x => if x = .nil then .atom "t" else .nil) rfl [.num 1, .nil, .num 2] fun x _ => .bi fun s _ _ => by cases x <;> rfl

/-- (reduce f xs): folds from the left, starting with the first element ... -/
theorem C39_reduce (h : CoreAt s.heap 0) {f a c : Val} {xs : List Val} (hm : f.notMacro = true) (hf : Folds W s f a xs c) :
    Gives W s "reduce" [f, vlist (a :: xs)] c := (ret_reduce h.base hm hf).gives hd_reduce

/-- ... or with the given value ... -/
theorem C39_reduce_init (h : CoreAt s.heap 0) {f a c : Val} {xs : List Val} (hm : f.notMacro = true) (hf : Folds W s f a xs c) :
    Gives W s "reduce" [f, a, vlist xs] c := (ret_reduce_init h.base hm hf).gives hd_reduce

example (inp : List (List Char)) : Gives W (topSt (initSt inp) coreEnv) "reduce" [.bi .add, .num 10, vlist [.num 1, .num 2]] (.num 13) :=
  C39_reduce_init (coreAt_loaded _) rfl (.cons (.bi fun _ _ _ => rfl) (.cons (.bi fun _ _ _ => rfl) .nil))

/-- ... and is `(f)` without either. -/
theorem C39_reduce_empty (h : CoreAt s.heap 0) {f c : Val} (hm : f.notMacro = true) (hf : Returns W s f [] c) :
    Gives W s "reduce" [f, .nil] c := (ret_reduce_empty h.base hm hf).gives hd_reduce

example (inp : List (List Char)) : Gives W (topSt (initSt inp) coreEnv) "reduce" [.bi .add, .nil] (.num 0) :=
  C39_reduce_empty (coreAt_loaded _) rfl (.bi fun _ _ _ => rfl)

/-- (some f xs): the first value of `f` that is not (). -/
theorem C39_some (h : CoreAt s.heap 0) {f : Val} {g : Val → Val} (hm : f.notMacro = true) (xs : List Val) (hf : ∀ x ∈ xs, Returns W s f [x] (g x)) :
    Gives W s "some" [f, vlist xs] (((xs.map g).find? (· ≠ .nil)).getD .nil) := (ret_some h.base hm xs hf).gives hd_some

example (inp : List (List Char)) : Gives W (topSt (initSt inp) coreEnv) "some" [.bi .not, vlist [.num 1, .nil]] (.atom "t") :=
  C39_some (coreAt_loaded _) (g := fun x => if x = .nil then .atom "t" else .nil) rfl [.num 1, .nil] fun x _ => .bi fun s _ _ => by cases x <;> rfl

/-- (every f xs): t if no value of `f` is (), else (). -/
theorem C39_every (h : CoreAt s.heap 0) {f : Val} {g : Val → Val} (hm : f.notMacro = true) (xs : List Val) (hf : ∀ x ∈ xs, Returns W s f [x] (g x)) :
    Gives W s "every" [f, vlist xs] (if ∀ x ∈ xs, g x ≠ .nil then .atom "t" else .nil) := by
  have := (ret_every (W := W) h.base hm xs hf).gives hd_every
  have e : (if ∀ x ∈ xs, g x ≠ .nil then Val.atom "t" else .nil) = vBool (xs.all fun x => g x ≠ .nil) := by
    by_cases hh : ∀ x ∈ xs, g x ≠ .nil
    · rw [if_pos hh, show (xs.all fun x => decide (g x ≠ .nil)) = true by simpa using hh]; rfl
    · rw [if_neg hh, show (xs.all fun x => decide (g x ≠ .nil)) = false by simpa using hh]; rfl
  rw [e]; exact this

example (inp : List (List Char)) : Gives W (topSt (initSt inp) coreEnv) "every" [.bi .not, vlist [.num 1, .nil]] (.nil) :=
  C39_every (coreAt_loaded _) (g := fun x => if x = .nil then .atom "t" else .nil) rfl [.num 1, .nil] (fun x _ => .bi fun s _ _ => by cases x <;> rfl)

/-- (repeatedly n f): the values of `n` calls (here all the same). -/
theorem C39_repeatedly (h : CoreAt s.heap 0) {f x : Val} (hm : f.notMacro = true) (n : Nat) (hf : Returns W s f [] x) :
    Gives W s "repeatedly" [.num n, f] (vlist (List.replicate n x)) := (ret_repeatedly h.base hm n hf).gives hd_repeatedly

example (inp : List (List Char)) : Gives W (topSt (initSt inp) coreEnv) "repeatedly" [.num 2, .bi .add] (vlist [.num 0, .num 0]) :=
  C39_repeatedly (coreAt_loaded _) rfl 2 (.bi fun _ _ _ => rfl)

/-- (not= a b ...): the opposite of `=`. -/
theorem C39_not_equal (h : CoreAt s.heap 0) (a : Val) (vs : List Val) : Gives W s "not=" (a :: vs) (vBool !(vs.all fun v => a.equal v)) :=
  (ret_notEq h.base a vs).gives hd_notEq

example (inp : List (List Char)) : Gives W (topSt (initSt inp) coreEnv) "not=" [.num 1, .num 1, .num 2] (.atom "t") :=
  C39_not_equal (coreAt_loaded _) (.num 1) [.num 1, .num 2]

/-! Functions that make functions; `Quiet s1 s2`: the new function keeps its meaning. -/

theorem C39_complement (h : CoreAt s.heap 0) {f : Val} (hm : f.notMacro = true) : GivesSome W s "complement" [f] fun s1 c =>
    ∀ s2, Quiet s1 s2 → ∀ x v, Returns W s2 f [x] v → Returns W s2 c [x] (vBool (v == .nil)) :=
  Makes.gives (fun s' e hq => let ⟨v, s2, h1, h2, h3⟩ := ret_complement h.base hm s' e hq; ⟨v, s2, h1, h2, h3.2⟩) hd_complement

theorem C39_constantly (h : CoreAt s.heap 0) (x : Val) : GivesSome W s "constantly" [x] fun s1 c => ∀ s2, Quiet s1 s2 → ∀ vs, Returns W s2 c vs x :=
  Makes.gives (fun s' e hq => let ⟨v, s2, h1, h2, h3⟩ := ret_constantly h.base x s' e hq; ⟨v, s2, h1, h2, h3.2⟩) hd_constantly

/-- `(constantly 7)` makes a function that returns 7 for any arguments. -/
example (inp : List (List Char)) : GivesSome W (topSt (initSt inp) coreEnv) "constantly" [.num 7] fun s1 c => ∀ s2, Quiet s1 s2 → ∀ vs, Returns W s2 c vs (.num 7) :=
  C39_constantly (coreAt_loaded _) _

theorem C39_partial (h : CoreAt s.heap 0) (f : Val) (as : List Val) : GivesSome W s "partial" (f :: as) fun s1 c =>
    ∀ s2, Quiet s1 s2 → ∀ more v, Returns W s2 f (as ++ more) v → Returns W s2 c more v :=
  Makes.gives (fun s' e hq => let ⟨v, s2, h1, h2, h3⟩ := ret_partial h.base f as s' e hq; ⟨v, s2, h1, h2, h3.2⟩) hd_partial

/-- `((partial + 1) 2)` is 3. -/
example (inp : List (List Char)) : GivesSome W (topSt (initSt inp) coreEnv) "partial" [.bi .add, .num 1] fun s1 c => ∀ s2, Quiet s1 s2 → Returns W s2 c [.num 2] (.num 3) :=
  (C39_partial (coreAt_loaded _) (.bi .add) [.num 1]).imp fun _ _ h s2 q => h s2 q [.num 2] _ (.bi fun _ _ _ => rfl)

theorem C39_juxt (h : CoreAt s.heap 0) {fs : List Val} (hm : ∀ f ∈ fs, f.notMacro = true) : GivesSome W s "juxt" fs fun s1 c =>
    ∀ s2, Quiet s1 s2 → ∀ x (g : Val → Val), (∀ f ∈ fs, Returns W s2 f [x] (g f)) → Returns W s2 c [x] (vlist (fs.map g)) :=
  Makes.gives (fun s' e hq => let ⟨v, s2, h1, h2, h3⟩ := ret_juxt h.base hm s' e hq; ⟨v, s2, h1, h2, h3.2⟩) hd_juxt

/-- `((juxt car cdr) (quote (1 2)))` is `(1 (2))`. -/
example (inp : List (List Char)) : GivesSome W (topSt (initSt inp) coreEnv) "juxt" [.bi .car, .bi .cdr] fun s1 c =>
    ∀ s2, Quiet s1 s2 → Returns W s2 c [vlist [.num 1, .num 2]] (vlist [.num 1, vlist [.num 2]]) :=
  (C39_juxt (coreAt_loaded _) (fs := [.bi .car, .bi .cdr]) (by simp [Val.notMacro])).imp fun _ _ h s2 q =>
    h s2 q (vlist [.num 1, .num 2]) (fun f => if f = .bi .car then .num 1 else vlist [.num 2]) (by
      intro f hf
      simp only [List.mem_cons, List.not_mem_nil, or_false] at hf
      rcases hf with rfl | rfl <;> exact .bi fun _ _ _ => rfl)

theorem C39_comp (h : CoreAt s.heap 0) {fs : List Val} (hm : ∀ f ∈ fs, f.notMacro = true) : GivesSome W s "comp" fs fun s1 c =>
    ∀ s2, Quiet s1 s2 → ∀ xs v, Composes W s2 fs xs v → Returns W s2 c xs v :=
  Makes.gives (fun s' e hq => let ⟨v, s2, h1, h2, h3⟩ := ret_comp h.base hm s' e hq; ⟨v, s2, h1, h2, h3.2⟩) hd_comp

/-- `((comp not +) 1 2)` is `()`. -/
example (inp : List (List Char)) : GivesSome W (topSt (initSt inp) coreEnv) "comp" [.bi .not, .bi .add] fun s1 c =>
    ∀ s2, Quiet s1 s2 → Returns W s2 c [.num 1, .num 2] .nil :=
  (C39_comp (coreAt_loaded _) (fs := [.bi .not, .bi .add]) (by simp [Val.notMacro])).imp fun _ _ h s2 q =>
    h s2 q [.num 1, .num 2] .nil (.cons (.one (.bi (v := .num 3) fun _ _ _ => rfl)) (.bi fun _ _ _ => rfl))

/-! ### C40: numbers -/

theorem C40_inc (h : CoreAt s.heap 0) (n : Int) : Gives W s "inc" [.num n] (.num (n + 1)) := (ret_inc h.base n).gives hd_inc
theorem C40_dec (h : CoreAt s.heap 0) (n : Int) : Gives W s "dec" [.num n] (.num (n - 1)) := (ret_dec h.base n).gives hd_dec

example (inp : List (List Char)) : Gives W (topSt (initSt inp) coreEnv) "dec" [.num (4)] (.num 3) :=
  C40_dec (coreAt_loaded _) (4)

example (inp : List (List Char)) : Gives W (topSt (initSt inp) coreEnv) "inc" [.num (4)] (.num 5) :=
  C40_inc (coreAt_loaded _) (4)

/-- `zero?` of any value. -/
theorem C40_zero (h : CoreAt s.heap 0) (v : Val) : Gives W s "zero?" [v] (if v = .num 0 then .atom "t" else .nil) := by
  have := (ret_zeroP (W := W) h.base v).gives hd_zeroP
  have e : (if v = .num 0 then Val.atom "t" else .nil) = vBool (v.equal (.num 0)) := by
    cases v <;> simp [Val.equal, vBool, vTrue]
  rwa [e]

example (inp : List (List Char)) : Gives W (topSt (initSt inp) coreEnv) "zero?" [.atom "x"] (.nil) :=
  C40_zero (coreAt_loaded _) (.atom "x")

theorem C40_pos (h : CoreAt s.heap 0) (n : Int) : Gives W s "pos?" [.num n] (if 0 < n then .atom "t" else .nil) := by
  have := (ret_posP (W := W) h.base n).gives hd_posP
  by_cases hh : 0 < n <;> simpa [vBool, vTrue, hh] using this

example (inp : List (List Char)) : Gives W (topSt (initSt inp) coreEnv) "pos?" [.num (4)] (.atom "t") :=
  C40_pos (coreAt_loaded _) (4)

theorem C40_neg (h : CoreAt s.heap 0) (n : Int) : Gives W s "neg?" [.num n] (if n < 0 then .atom "t" else .nil) := by
  have := (ret_negP (W := W) h.base n).gives hd_negP
  by_cases hh : n < 0 <;> simpa [vBool, vTrue, hh] using this

example (inp : List (List Char)) : Gives W (topSt (initSt inp) coreEnv) "neg?" [.num (4)] (.nil) :=
  C40_neg (coreAt_loaded _) (4)

theorem C40_even (h : CoreAt s.heap 0) (n : Int) : Gives W s "even?" [.num n] (if 2 ∣ n then .atom "t" else .nil) := by
  have := (ret_evenP (W := W) h.base n).gives hd_evenP
  by_cases hh : 2 ∣ n
  · simpa [vBool, vTrue, hh, Int.tmod_eq_zero_of_dvd hh] using this
  · have : n.tmod 2 ≠ 0 := fun e => hh (Int.dvd_of_tmod_eq_zero e)
    simp_all [vBool, vTrue]

example (inp : List (List Char)) : Gives W (topSt (initSt inp) coreEnv) "even?" [.num (-4)] (.atom "t") :=
  C40_even (coreAt_loaded _) (-4)

theorem C40_odd (h : CoreAt s.heap 0) (n : Int) : Gives W s "odd?" [.num n] (if 2 ∣ n then .nil else .atom "t") := by
  have := (ret_oddP (W := W) h.base n).gives hd_oddP
  by_cases hh : 2 ∣ n
  · simpa [vBool, vTrue, hh, Int.tmod_eq_zero_of_dvd hh] using this
  · have : n.tmod 2 ≠ 0 := fun e => hh (Int.dvd_of_tmod_eq_zero e)
    simp_all [vBool, vTrue]

example (inp : List (List Char)) : Gives W (topSt (initSt inp) coreEnv) "odd?" [.num (-4)] (.nil) :=
  C40_odd (coreAt_loaded _) (-4)

theorem C40_abs (h : CoreAt s.heap 0) (n : Int) : Gives W s "abs" [.num n] (.num (if n < 0 then -n else n)) := by
  have := (ret_abs (W := W) h.base n).gives hd_abs
  rwa [show ((n.natAbs : Nat) : Int) = if n < 0 then -n else n by split <;> omega] at this

example (inp : List (List Char)) : Gives W (topSt (initSt inp) coreEnv) "abs" [.num (-4)] (.num 4) :=
  C40_abs (coreAt_loaded _) (-4)

/-- (** n m) is n to the power m, for every natural number m. -/
theorem C40_power (h : CoreAt s.heap 0) (n : Int) (m : Nat) : Gives W s "**" [.num n, .num m] (.num (n ^ m)) := (ret_pow h.base n m).gives hd_StarStar

example (inp : List (List Char)) : Gives W (topSt (initSt inp) coreEnv) "**" [.num (-2), .num 3] (.num (-8)) :=
  C40_power (coreAt_loaded _) (-2) 3

/-- (max n ...): the greatest of the numbers. -/
theorem C40_max (h : CoreAt s.heap 0) (ns : List Int) (hn : ns ≠ []) : ∃ m ∈ ns, (∀ n ∈ ns, n ≤ m) ∧ Gives W s "max" (ns.map .num) (.num m) := by
  cases ns with
  | nil => exact absurd rfl hn
  | cons n ns =>
    have key : ∀ (l : List Int) (a : Int), l.foldl max a ∈ a :: l ∧ ∀ b ∈ a :: l, b ≤ l.foldl max a := by
      intro l
      induction l with
      | nil => intro a; simp
      | cons b l ih =>
        intro a
        obtain ⟨h1, h2⟩ := ih (max a b)
        have h3 := h2 (max a b) (by simp)
        refine ⟨?_, ?_⟩
        · simp only [List.foldl_cons]
          rcases List.mem_cons.1 h1 with h1 | h1
          · rw [h1]
            rcases Int.le_total a b with hab | hab
            · rw [Int.max_eq_right hab]; simp
            · rw [Int.max_eq_left hab]; simp
          · simp [h1]
        · intro c hc
          simp only [List.foldl_cons]
          simp only [List.mem_cons] at hc
          rcases hc with rfl | rfl | hc
          · omega
          · omega
          · exact h2 c (by simp [hc])
    exact ⟨_, (key ns n).1, (key ns n).2, (ret_max h.base n ns).gives hd_max⟩

example (inp : List (List Char)) : Gives W (topSt (initSt inp) coreEnv) "max" [.num 3, .num 7, .num (-9)] (.num 7) := by
  obtain ⟨m, h1, h2, h3⟩ := C40_max (W := W) (coreAt_loaded (initSt inp)) [3, 7, -9] (by decide)
  have : m = 7 := by
    have h4 := h2 7 (by decide)
    simp only [List.mem_cons, List.not_mem_nil, or_false] at h1
    omega
  subst this; exact h3

/-- (min n ...): the least of the numbers. -/
theorem C40_min (h : CoreAt s.heap 0) (ns : List Int) (hn : ns ≠ []) : ∃ m ∈ ns, (∀ n ∈ ns, m ≤ n) ∧ Gives W s "min" (ns.map .num) (.num m) := by
  cases ns with
  | nil => exact absurd rfl hn
  | cons n ns =>
    have key : ∀ (l : List Int) (a : Int), l.foldl min a ∈ a :: l ∧ ∀ b ∈ a :: l, l.foldl min a ≤ b := by
      intro l
      induction l with
      | nil => intro a; simp
      | cons b l ih =>
        intro a
        obtain ⟨h1, h2⟩ := ih (min a b)
        have h3 := h2 (min a b) (by simp)
        refine ⟨?_, ?_⟩
        · simp only [List.foldl_cons]
          rcases List.mem_cons.1 h1 with h1 | h1
          · rw [h1]
            rcases Int.le_total a b with hab | hab
            · rw [Int.min_eq_left hab]; simp
            · rw [Int.min_eq_right hab]; simp
          · simp [h1]
        · intro c hc
          simp only [List.foldl_cons]
          simp only [List.mem_cons] at hc
          rcases hc with rfl | rfl | hc
          · omega
          · omega
          · exact h2 c (by simp [hc])
    exact ⟨_, (key ns n).1, (key ns n).2, (ret_min h.base n ns).gives hd_min⟩

example (inp : List (List Char)) : Gives W (topSt (initSt inp) coreEnv) "min" [.num 3, .num 7, .num (-9)] (.num (-9)) := by
  obtain ⟨m, h1, h2, h3⟩ := C40_min (W := W) (coreAt_loaded (initSt inp)) [3, 7, -9] (by decide)
  have : m = -9 := by
    have h4 := h2 (-9) (by decide)
    simp only [List.mem_cons, List.not_mem_nil, or_false] at h1
    omega
  subst this; exact h3

/-! ### The hypotheses are met

Once the library is loaded (`load_core`: reading and evaluating lisp/l1.l1 succeeds and leaves the state `topSt (initSt inp) coreEnv`), every call
at top level is such a call. -/

example (inp : List (List Char)) : ∃ s', lexParseEval (perform W) coreText 0 (initSt inp) = .ok () s' ∧ CoreAt s'.heap 0 := ⟨_, load_core inp, coreAt_loaded _⟩

/-- `(name 'v)` at top level. -/
theorem gives_loaded {inp : List (List Char)} {name : String} {v w : Val} (h : Gives W (topSt (initSt inp) coreEnv) name [v] w) (hn : lookup (topSt (initSt inp) coreEnv).heap 0 name = alGet name coreEnv) :
    ∃ s', eval W (form name [vlist [.atom "quote", v]]) 0 (topSt (initSt inp) coreEnv) = .ok w s' ∧ Quiet (topSt (initSt inp) coreEnv) s' := by
  refine h 0 _ _ hn (.cons ?_ .nil)
  refine (eval_sform W .quote [v] 0 _ ?_).trans rfl
  exact topSt_notMacro rfl

/-- (reverse '(1 2 3)) is (3 2 1). -/
example (inp : List (List Char)) : ∃ s', eval W (form "reverse" [vlist [.atom "quote", vlist [.num 1, .num 2, .num 3]]]) 0 (topSt (initSt inp) coreEnv)
    = .ok (vlist [.num 3, .num 2, .num 1]) s' := by
  obtain ⟨s', h, _⟩ := gives_loaded (C39_reverse (W := W) (coreAt_loaded (initSt inp)) [.num 1, .num 2, .num 3]) ((coreAt_loaded _).sees _ _ (by decide +kernel))
  exact ⟨s', h⟩

/-- Functions that may be given to `map`, `filter`, `reduce` ...: `inc`, `even?`, built-in functions. -/
example (inp : List (List Char)) (ns : List Int) : Gives W (topSt (initSt inp) coreEnv) "map" [k_inc, vlist (ns.map Val.num)] (vlist ((ns.map Val.num).map fun v => match v with | .num n => .num (n + 1) | v => v)) :=
  C39_map (coreAt_loaded _) rfl _ fun x hx => by
    obtain ⟨n, _, rfl⟩ := List.mem_map.1 hx
    exact ret_inc (coreAt_loaded _).base n

example (inp : List (List Char)) : Gives W (topSt (initSt inp) coreEnv) "reduce" [.bi .add, vlist [.num 1, .num 2, .num 3]] (.num 6) :=
  C39_reduce (coreAt_loaded _) rfl (.cons (.bi fun _ _ _ => rfl) (.cons (.bi fun _ _ _ => rfl) .nil))

example (inp : List (List Char)) : Composes W (topSt (initSt inp) coreEnv) [k_inc, .bi .add] [.num 1, .num 2] (.num 4) :=
  .cons (.one (.bi (v := .num 3) fun _ _ _ => rfl)) (ret_inc (coreAt_loaded _).base 3)

example (inp : List (List Char)) : Returns W (topSt (initSt inp) coreEnv) (.bi .list) [.num 1, .num 2] (vlist [.num 1, .num 2]) := .bi fun _ _ _ => rfl

example : (([3, 1, 2] : List Int)) ≠ [] := by decide

end L1
