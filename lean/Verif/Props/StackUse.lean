import Verif.Lemmas.Overflow
import Verif.Lemmas.CoreLoad
import Verif.Props.Library
/-
C84: how much stack the functions of the core library use.  Those whose recursion is a tail call use the same few evaluator calls for a list of any
length; the others need one more for every element they keep, and overflow the stack (which kills the process, C30, C82) on a list that is too long
for it.
-/
set_option autoImplicit false
namespace L1

variable {W : World} {s : St}

/-! ### The same stack for a list of any length -/

/-- (nth n xs) for every `n` and every `xs`, on a stack of 3 or more. -/
theorem C84_nth (h : CoreAt s.heap 0) (d n : Nat) (xs : List Val) : GivesWithin W (d + 2) s "nth" [.num n, vlist xs] ((xs[n]?).getD .nil) := by
  have := (rw_nth (W := W) h.base d n xs).gives hd_nth
  rwa [List.getD_eq_getElem?_getD] at this

/-- On a stack of 3, the millionth element. -/
example (inp : List (List Char)) : GivesWithin W 2 (topSt (initSt inp) coreEnv) "nth" [.num 1000000, vlist (List.replicate 1000001 (.num 7))] (.num 7) := by
  have := C84_nth (W := W) (coreAt_loaded (initSt inp)) 0 1000000 (List.replicate 1000001 (.num 7))
  rwa [List.getElem?_replicate_of_lt (by omega)] at this

/-- (drop n xs), on a stack of 3 or more. -/
theorem C84_drop (h : CoreAt s.heap 0) (d n : Nat) (xs : List Val) : GivesWithin W (d + 2) s "drop" [.num n, vlist xs] (vlist (xs.drop n)) :=
  (rw_drop h.base d n xs).gives hd_drop

example (inp : List (List Char)) : GivesWithin W 2 (topSt (initSt inp) coreEnv) "drop" [.num 1000000, vlist (List.replicate 1000001 (.num 7))] (vlist [.num 7]) := by
  have := C84_drop (W := W) (coreAt_loaded (initSt inp)) 0 1000000 (List.replicate 1000001 (.num 7))
  rwa [List.drop_replicate] at this

/-- (last xs), on a stack of 7 or more. -/
theorem C84_last (h : CoreAt s.heap 0) (d : Nat) (xs : List Val) : GivesWithin W (d + 6) s "last" [vlist xs] (xs.getLast?.getD .nil) := by
  have := (rw_last (W := W) d h.base xs).gives hd_last
  rwa [List.getLastD_eq_getLast?] at this

example (inp : List (List Char)) : GivesWithin W 6 (topSt (initSt inp) coreEnv) "last" [vlist (List.replicate 1000001 (.num 7))] (.num 7) := by
  have := C84_last (W := W) (coreAt_loaded (initSt inp)) 0 (List.replicate 1000001 (.num 7))
  rwa [List.getLast?_replicate] at this

/-- (every f xs), on a stack of 7 or more, if every call of `f` does with one less. -/
theorem C84_every (h : CoreAt s.heap 0) (d : Nat) {f : Val} {g : Val → Val} (hm : f.notMacro = true) (xs : List Val)
    (hf : ∀ x ∈ xs, ReturnsWithin W (d + 5) s f [x] (g x)) : GivesWithin W (d + 6) s "every" [f, vlist xs] (if ∀ x ∈ xs, g x ≠ .nil then .atom "t" else .nil) := by
  have := (rw_every (W := W) h.base d hm xs hf).gives hd_every
  have he : vBool (xs.all fun x => decide (g x ≠ .nil)) = if ∀ x ∈ xs, g x ≠ .nil then .atom "t" else .nil := by
    by_cases hx : ∀ x ∈ xs, g x ≠ .nil
    · rw [if_pos hx, List.all_eq_true.2 fun x hx' => by simp [hx x hx']]; rfl
    · rw [if_neg hx]
      have : (xs.all fun x => decide (g x ≠ .nil)) = false := by
        rw [Bool.eq_false_iff]
        intro ha
        exact hx fun x hx' => by simpa using List.all_eq_true.1 ha x hx'
      rw [this]; rfl
  rwa [he] at this

/-- (some f xs), on a stack of 11 or more, if every call of `f` does with one less. -/
theorem C84_some (h : CoreAt s.heap 0) (d : Nat) {f : Val} {g : Val → Val} (hm : f.notMacro = true) (xs : List Val)
    (hf : ∀ x ∈ xs, ReturnsWithin W (d + 9) s f [x] (g x)) : GivesWithin W (d + 10) s "some" [f, vlist xs] (((xs.map g).find? (· ≠ .nil)).getD .nil) :=
  (rw_some h.base d hm xs hf).gives hd_some

/-- (reduce f xs), on a stack of 7 or more, if every call of `f` does with one less ... -/
theorem C84_reduce (h : CoreAt s.heap 0) (d : Nat) {f a c : Val} {xs : List Val} (hm : f.notMacro = true) (hf : FoldsWithin W (d + 5) s f a xs c) :
    GivesWithin W (d + 6) s "reduce" [f, vlist (a :: xs)] c := (rw_reduce h.base hm hf).gives hd_reduce

/-- ... and (reduce f a xs). -/
theorem C84_reduce_init (h : CoreAt s.heap 0) (d : Nat) {f a c : Val} {xs : List Val} (hm : f.notMacro = true) (hf : FoldsWithin W (d + 5) s f a xs c) :
    GivesWithin W (d + 6) s "reduce" [f, a, vlist xs] c := (rw_reduce_init h.base hm hf).gives hd_reduce

/-! ### One more for every element -/

/-- (map f xs) needs no more than 11 evaluator calls and one for every element ... -/
theorem C84_map (h : CoreAt s.heap 0) (d : Nat) {f : Val} {g : Val → Val} (hm : f.notMacro = true) (xs : List Val)
    (hf : ∀ x ∈ xs, ReturnsWithin W (d + 10) s f [x] (g x)) : GivesWithin W (d + xs.length + 10) s "map" [f, vlist xs] (vlist (xs.map g)) :=
  (rw_map h.base d hm xs hf).gives hd_map

/-- ... but as many as there are elements: whatever the function, the list is too long for a smaller stack. -/
theorem C84_map_overflow (h : CoreAt s.heap 0) {f : Val} {g : Val → Val} (hm : f.notMacro = true) (xs : List Val)
    (hf : ∀ x ∈ xs, Returns W s f [x] (g x)) (d : Nat) (hd : d < xs.length) : Overflows W d s "map" [f, vlist xs] :=
  (row_map h.base hm xs hf d hd).overflows hd_map

theorem C84_filter (h : CoreAt s.heap 0) (d : Nat) {f : Val} {g : Val → Val} (hm : f.notMacro = true) (xs : List Val)
    (hf : ∀ x ∈ xs, ReturnsWithin W (d + 1) s f [x] (g x)) :
    GivesWithin W (d + (xs.filter fun x => g x ≠ .nil).length + 2) s "filter" [f, vlist xs] (vlist (xs.filter fun x => g x ≠ .nil)) :=
  (rw_filter h.base d hm xs hf).gives hd_filter

/-- `filter` needs one evaluator call for every element it keeps (and none for the others). -/
theorem C84_filter_overflow (h : CoreAt s.heap 0) {f : Val} {g : Val → Val} (hm : f.notMacro = true) (xs : List Val)
    (hf : ∀ x ∈ xs, Returns W s f [x] (g x)) (d : Nat) (hd : d < (xs.filter fun x => g x ≠ .nil).length) : Overflows W d s "filter" [f, vlist xs] :=
  (row_filter h.base hm xs hf d hd).overflows hd_filter

theorem C84_take (h : CoreAt s.heap 0) (d n : Nat) (xs : List Val) : GivesWithin W (d + min n xs.length + 2) s "take" [.num n, vlist xs] (vlist (xs.take n)) :=
  (rw_take h.base d n xs).gives hd_take

theorem C84_take_overflow (h : CoreAt s.heap 0) (d n : Nat) (xs : List Val) (hd : d < min n xs.length) : Overflows W d s "take" [.num n, vlist xs] :=
  (row_take h.base n xs d hd).overflows hd_take

/-- (concat2 xs ys), the function behind `concat`: one evaluator call for every element of the first list, none for the second. -/
theorem C84_concat2 (h : CoreAt s.heap 0) (d : Nat) (xs ys : List Val) : GivesWithin W (d + xs.length + 2) s "concat2" [vlist xs, vlist ys] (vlist (xs ++ ys)) := by
  have := (rw_concat2 (W := W) (d := d) h.base xs (vlist ys)).gives hd_concat2
  rwa [mkList_vlist] at this

theorem C84_concat2_overflow (h : CoreAt s.heap 0) (d : Nat) (xs ys : List Val) (hd : d < xs.length) : Overflows W d s "concat2" [vlist xs, vlist ys] :=
  (row_concat2 h.base xs (vlist ys) d hd).overflows hd_concat2

/-- (repeat n x): one evaluator call for every element. -/
theorem C84_repeat (h : CoreAt s.heap 0) (d : Nat) (n : Int) (x : Val) : GivesWithin W (d + n.toNat + 10) s "repeat" [.num n, x] (vlist (List.replicate n.toNat x)) :=
  (rw_repeat h.base d n x).gives hd_repeat

theorem C84_repeat_overflow (h : CoreAt s.heap 0) (d : Nat) (n : Int) (x : Val) (hd : d < n) : Overflows W d s "repeat" [.num n, x] :=
  (row_repeat h.base n x d hd).overflows hd_repeat

theorem C84_reverse_overflow (h : CoreAt s.heap 0) (d : Nat) (xs : List Val) (hd : d < xs.length) : Overflows W d s "reverse" [vlist xs] :=
  (row_reverse h.base xs d hd).overflows hd_reverse

/-- (** n m): one evaluator call for every factor. -/
theorem C84_power (h : CoreAt s.heap 0) (d : Nat) (n : Int) (m : Nat) : GivesWithin W (d + m + 6) s "**" [.num n, .num m] (.num (n ^ m)) :=
  (rw_power h.base d n m).gives hd_StarStar

theorem C84_power_overflow (h : CoreAt s.heap 0) (d : Nat) (n : Int) (m : Nat) (hd : d < m) : Overflows W d s "**" [.num n, .num m] :=
  (row_power h.base n m d hd).overflows hd_StarStar

/-! ### Cases -/

/-- The sum of a million sevens, on a stack of 7. -/
example (inp : List (List Char)) : GivesWithin W 6 (topSt (initSt inp) coreEnv) "reduce" [.bi .add, .num 0, vlist (List.replicate 1000000 (.num 7))] (.num 7000000) := by
  have hf : ∀ (k : Nat) (a : Int), FoldsWithin W 5 (topSt (initSt inp) coreEnv) (.bi .add) (.num a) (List.replicate k (.num 7)) (.num (a + 7 * k)) := by
    intro k
    induction k with
    | zero => intro a; simpa using FoldsWithin.nil
    | succ k ih =>
      intro a
      rw [List.replicate_succ, show a + 7 * ((k + 1 : Nat) : Int) = (a + 7) + 7 * k by push_cast; omega]
      exact .cons (RW.bi fun _ _ _ => by simp [biFn, bAddLoop]) (ih (a + 7))
  exact C84_reduce_init (coreAt_loaded _) 0 rfl (hf 1000000 0)

example (inp : List (List Char)) : GivesWithin W 6 (topSt (initSt inp) coreEnv) "reduce" [.bi .add, vlist [.num 1, .num 2, .num 3]] (.num 6) :=
  C84_reduce (coreAt_loaded _) 0 rfl (.cons (RW.bi fun _ _ _ => rfl) (.cons (RW.bi fun _ _ _ => rfl) .nil))

theorem notWithin (d : Nat) (s : St) (x : Val) : ReturnsWithin W d s (.bi .not) [x] (if x = .nil then .atom "t" else .nil) :=
  RW.bi fun _ _ _ => by cases x <;> rfl

theorem notReturns (s : St) (x : Val) : Returns W s (.bi .not) [x] (if x = .nil then .atom "t" else .nil) :=
  .bi fun _ _ _ => by cases x <;> rfl

example (inp : List (List Char)) : GivesWithin W 6 (topSt (initSt inp) coreEnv) "every" [.bi .not, vlist (List.replicate 1000000 .nil)] (.atom "t") := by
  have := C84_every (W := W) (coreAt_loaded (initSt inp)) 0 rfl (List.replicate 1000000 .nil) fun x _ => notWithin 5 _ x
  rwa [if_pos (fun x hx => by rw [(List.mem_replicate.1 hx).2]; decide)] at this

example (inp : List (List Char)) : GivesWithin W 10 (topSt (initSt inp) coreEnv) "some" [.bi .not, vlist [.num 1, .num 2, .nil]] (.atom "t") :=
  C84_some (W := W) (coreAt_loaded (initSt inp)) 0 rfl [.num 1, .num 2, .nil] fun x _ => notWithin 9 _ x

example (inp : List (List Char)) : GivesWithin W 13 (topSt (initSt inp) coreEnv) "map" [.bi .not, vlist [.num 1, .num 2, .nil]] (vlist [.nil, .nil, .atom "t"]) :=
  C84_map (W := W) (coreAt_loaded (initSt inp)) 0 rfl [.num 1, .num 2, .nil] fun x _ => notWithin 10 _ x

/-- A million elements do not fit on a stack of a million. -/
example (inp : List (List Char)) : Overflows W 999999 (topSt (initSt inp) coreEnv) "map" [.bi .not, vlist (List.replicate 1000000 (.num 7))] :=
  C84_map_overflow (coreAt_loaded (initSt inp)) rfl _ (fun x _ => notReturns _ x) _ (by rw [List.length_replicate]; omega)

example (inp : List (List Char)) : GivesWithin W 3 (topSt (initSt inp) coreEnv) "filter" [.bi .not, vlist [.num 1, .nil, .num 2]] (vlist [.nil]) :=
  C84_filter (W := W) (coreAt_loaded (initSt inp)) 0 rfl [.num 1, .nil, .num 2] fun x _ => notWithin 1 _ x

example (inp : List (List Char)) : Overflows W 1 (topSt (initSt inp) coreEnv) "filter" [.bi .not, vlist [.nil, .num 1, .nil]] :=
  C84_filter_overflow (coreAt_loaded (initSt inp)) rfl _ (fun x _ => notReturns _ x) _ (by decide)

example (inp : List (List Char)) : GivesWithin W 4 (topSt (initSt inp) coreEnv) "take" [.num 2, vlist [.num 1, .num 2, .num 3]] (vlist [.num 1, .num 2]) :=
  C84_take (coreAt_loaded (initSt inp)) 0 2 [.num 1, .num 2, .num 3]

example (inp : List (List Char)) : Overflows W 1 (topSt (initSt inp) coreEnv) "take" [.num 2, vlist [.num 1, .num 2, .num 3]] :=
  C84_take_overflow (coreAt_loaded (initSt inp)) 1 2 [.num 1, .num 2, .num 3] (by decide)

example (inp : List (List Char)) : GivesWithin W 3 (topSt (initSt inp) coreEnv) "concat2" [vlist [.num 1], vlist [.num 2, .num 3]] (vlist [.num 1, .num 2, .num 3]) :=
  C84_concat2 (coreAt_loaded (initSt inp)) 0 [.num 1] [.num 2, .num 3]

example (inp : List (List Char)) : Overflows W 0 (topSt (initSt inp) coreEnv) "concat2" [vlist [.num 1], vlist [.num 2, .num 3]] :=
  C84_concat2_overflow (coreAt_loaded (initSt inp)) 0 [.num 1] [.num 2, .num 3] (by decide)

example (inp : List (List Char)) : GivesWithin W 12 (topSt (initSt inp) coreEnv) "repeat" [.num 2, .num 7] (vlist [.num 7, .num 7]) :=
  C84_repeat (coreAt_loaded (initSt inp)) 0 2 (.num 7)

example (inp : List (List Char)) : Overflows W 999999 (topSt (initSt inp) coreEnv) "repeat" [.num 1000000, .num 7] :=
  C84_repeat_overflow (coreAt_loaded (initSt inp)) 999999 1000000 (.num 7) (by decide)

example (inp : List (List Char)) : Overflows W 1 (topSt (initSt inp) coreEnv) "reverse" [vlist [.num 1, .num 2]] :=
  C84_reverse_overflow (coreAt_loaded (initSt inp)) 1 [.num 1, .num 2] (by decide)

example (inp : List (List Char)) : GivesWithin W 16 (topSt (initSt inp) coreEnv) "**" [.num 2, .num 10] (.num 1024) :=
  C84_power (coreAt_loaded (initSt inp)) 0 2 10

example (inp : List (List Char)) : Overflows W 9 (topSt (initSt inp) coreEnv) "**" [.num 2, .num 10] :=
  C84_power_overflow (coreAt_loaded (initSt inp)) 9 2 10 (by decide)

/-- Such calls: `(nth 1000000 xs)` for a variable `xs`. -/
example (e : Nat) (xs : Val) (hx : lookup s.heap e "xs" = some xs) : EvalsWithin W 2 e [.num 1000000, .atom "xs"] s [.num 1000000, xs] s :=
  .cons within_num (.cons (within_atom rfl (by decide) hx) .nil)

end L1
