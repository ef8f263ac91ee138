import Verif.Lemmas.CorePlans2
import Verif.Props.Encapsulation
import Verif.Props.LibraryCtl
/-
C70: the library functions that call a function they are given, whatever the function does.
-/
set_option autoImplicit false
namespace L1
variable {W : World}

theorem vok_args {n : Nat} {name : String} {args : List Val} (h : VOk n (form name args)) : ∀ a ∈ args, VOk n a := by
  have h' : VOk n (vlist args) := h.2
  clear h
  induction args with
  | nil => simp
  | cons a args ih =>
    intro b hb
    rcases List.mem_cons.1 hb with rfl | hb
    · exact h'.1
    · exact ih h'.2 b hb

theorem plays_of {name : String} {k f : Val} {p : Plan} {vs us : List Val} (hd : Head name k) (hus : ∀ n, (∀ v ∈ vs, VOk n v) → ∀ u ∈ us, VOk n u)
    (h : ∀ (s : St) (e : Nat) (J : Nat → Prop), Base s.heap 0 → Under s us J → FollowsU W f J p s (callFn W k vs e s)) :
    Always W { pre := Plays W name vs f p } := by
  refine always_of_watchOk W ⟨fun t s hi ht e args s1 htask hl hev hc => ?_, fun _ _ _ _ _ _ => trivial⟩
  subst htask
  obtain ⟨hi1, _, hv⟩ := evalsTo_ok hev hi ht.2 (vok_args ht.1)
  obtain ⟨h1, h2⟩ := hd.reaches (W := W) hl
  obtain ⟨r, h3, h4⟩ := h s1 e _ ((Under.start hi1 (hus _ hv)).base hc) (Under.start hi1 (hus _ hv))
  refine ⟨r, h3, ?_⟩
  rw [show eval W (form name args) e s = callFn W k vs e s1 from eval_reaches h1 ⟨s, h2, hev⟩]
  exact h4

theorem vok_elems {n : Nat} {xs : List Val} (h : VOk n (vlist xs)) : ∀ x ∈ xs, VOk n x := by
  induction xs with
  | nil => simp
  | cons a xs ih =>
    intro b hb
    rcases List.mem_cons.1 hb with rfl | hb
    · exact h.1
    · exact ih h.2 b hb

theorem Under.elems {s : St} {vs xs : List Val} {J : Nat → Prop} (h : Under s vs J) (hx : vlist xs ∈ vs) : Under s (xs ++ vs) J := by
  obtain ⟨R, c, h1, h2, h3, h4, h5⟩ := h
  refine ⟨R, c, h1, h2, fun v hm => ?_, h4, h5⟩
  rcases List.mem_append.1 hm with hv | hv
  · obtain ⟨u, hu, hr⟩ := h3 _ hx
    clear hx h3 hm
    induction xs generalizing u with
    | nil => simp at hv
    | cons a xs ih =>
      cases u <;> simp only [Val.ren, vlist_cons, reduceCtorEq, Val.cons.injEq] at hr
      rename_i a' d'
      rcases List.mem_cons.1 hv with rfl | hv
      · exact ⟨a', hu.1, hr.1⟩
      · exact ih hv d' hu.2 hr.2
  · exact h3 v hv

/-- C70: `(map f l)` calls `f` with each element of `l`, in order, and returns the list of the values. -/
theorem C70_map (W : World) (f : Val) (xs : List Val) (hf : f.ordinary = true) : Always W { pre := Plays W "map" [f, vlist xs] f (mapPlan xs) } := by
  refine plays_of (us := f :: xs) hd_map (fun n h u hu => ?_) fun s e J hc hu => follows_map hf (f :: xs) (by simp) xs (fun x hx => by simp [hx]) s e J hc hu
  rcases List.mem_cons.1 hu with rfl | hu
  · exact h _ (by simp)
  · exact vok_elems (h (vlist xs) (by simp)) u hu

/-- `map`, `filter`, … with the native `car`, with a function that assigns to a variable, with a user's lambda. -/
example (W : World) (xs : List Val) : Always W { pre := Plays W "map" [.bi .car, vlist xs] (.bi .car) (mapPlan xs) } := C70_map _ _ _ (by decide)

/-- C70: `(filter f l)` calls `f` with each element of `l`, in order, and returns the list of those for which the value was not (). -/
theorem C70_filter (W : World) (f : Val) (xs : List Val) (hf : f.ordinary = true) : Always W { pre := Plays W "filter" [f, vlist xs] f (filterPlan xs) } := by
  refine plays_of (us := f :: xs) hd_filter (fun n h u hu => ?_) fun s e J hc hu => follows_filter hf (f :: xs) (by simp) xs (fun x hx => by simp [hx]) s e J hc hu
  rcases List.mem_cons.1 hu with rfl | hu
  · exact h _ (by simp)
  · exact vok_elems (h (vlist xs) (by simp)) u hu

example (W : World) (xs : List Val) (e : Nat) :
    let f := Val.lam ["x"] "" (vlist [form "<" [.atom "x", .num 3]]) .nil false e
    Always W { pre := Plays W "filter" [f, vlist xs] f (filterPlan xs) } := C70_filter _ _ _ rfl

/-- C70: `(some f l)` calls `f` with the elements of `l`, in order, until a value is not (), and returns that value; () if there is none. -/
theorem C70_some (W : World) (f : Val) (xs : List Val) (hf : f.ordinary = true) : Always W { pre := Plays W "some" [f, vlist xs] f (somePlan xs) } := by
  refine plays_of (us := f :: xs) hd_some (fun n h u hu => ?_) fun s e J hc hu => follows_some hf (f :: xs) (by simp) xs (fun x hx => by simp [hx]) s e J hc hu
  rcases List.mem_cons.1 hu with rfl | hu
  · exact h _ (by simp)
  · exact vok_elems (h (vlist xs) (by simp)) u hu

example (W : World) : Always W { pre := Plays W "some" [.bi .numberP, vlist [.atom "a", .num 1]] (.bi .numberP) (somePlan [.atom "a", .num 1]) } := C70_some _ _ _ (by decide)

/-- C70: `(every f l)` calls `f` with the elements of `l`, in order, until a value is (), and returns () then; t if there is none. -/
theorem C70_every (W : World) (f : Val) (xs : List Val) (hf : f.ordinary = true) : Always W { pre := Plays W "every" [f, vlist xs] f (everyPlan xs) } := by
  refine plays_of (us := f :: xs) hd_every (fun n h u hu => ?_) fun s e J hc hu => follows_every hf (f :: xs) (by simp) xs (fun x hx => by simp [hx]) s e J hc hu
  rcases List.mem_cons.1 hu with rfl | hu
  · exact h _ (by simp)
  · exact vok_elems (h (vlist xs) (by simp)) u hu

example (W : World) : Always W { pre := Plays W "every" [.bi .numberP, vlist [.atom "a", .num 1]] (.bi .numberP) (everyPlan [.atom "a", .num 1]) } := C70_every _ _ _ (by decide)

/-- C70: `(repeatedly n f)` calls `f` `n` times without arguments and returns the list of the values. -/
theorem C70_repeatedly (W : World) (f : Val) (n : Nat) (hf : f.ordinary = true) : Always W { pre := Plays W "repeatedly" [.num n, f] f (repeatPlan n) } := by
  refine plays_of (us := [f]) hd_repeatedly (fun n h u hu => ?_) fun s e J hc hu => follows_repeatedly hf [f] (by simp) n s e J hc hu
  exact h u (by simp only [List.mem_singleton] at hu; simp [hu])

example (W : World) : Always W { pre := Plays W "repeatedly" [.num 3, .bi .println] (.bi .println) (repeatPlan 3) } := C70_repeatedly _ _ _ (by decide)

/-- C70: `(reduce f (a x ...))` calls `f` with `a` and the first of the others, then with the value and the next one, and so on, and returns the last value (`a` if
there are no others). -/
theorem C70_reduce (W : World) (f a : Val) (xs : List Val) (hf : f.ordinary = true) : Always W { pre := Plays W "reduce" [f, vlist (a :: xs)] f (reducePlan a xs) } := by
  refine plays_of (us := f :: a :: xs) hd_reduce (fun n h u hu => ?_)
    fun s e J hc hu => follows_reduce hf (f :: a :: xs) (by simp) a (by simp) xs (fun x hx => by simp [hx]) s e J hc hu
  rcases List.mem_cons.1 hu with rfl | hu
  · exact h _ (by simp)
  · exact vok_elems (h (vlist (a :: xs)) (by simp)) u hu

example (W : World) : Always W { pre := Plays W "reduce" [.bi .add, vlist [.num 1, .num 2]] (.bi .add) (reducePlan (.num 1) [.num 2]) } := C70_reduce _ _ _ _ (by decide)

/-- C70: `(reduce f a l)` starts with `a` and calls `f` with the value so far and each element of `l`. -/
theorem C70_reduce_init (W : World) (f a : Val) (xs : List Val) (hf : f.ordinary = true) : Always W { pre := Plays W "reduce" [f, a, vlist xs] f (reducePlan a xs) } := by
  refine plays_of (us := f :: a :: xs) hd_reduce (fun n h u hu => ?_)
    fun s e J hc hu => follows_reduce_init hf (f :: a :: xs) (by simp) a (by simp) xs (fun x hx => by simp [hx]) s e J hc hu
  rcases List.mem_cons.1 hu with rfl | hu
  · exact h _ (by simp)
  rcases List.mem_cons.1 hu with rfl | hu
  · exact h _ (by simp)
  · exact vok_elems (h (vlist xs) (by simp)) u hu

example (W : World) : Always W { pre := Plays W "reduce" [.bi .add, .num 0, vlist [.num 2]] (.bi .add) (reducePlan (.num 0) [.num 2]) } := C70_reduce_init _ _ _ _ (by decide)

/-- C70: `(reduce f ())` calls `f` without arguments. -/
theorem C70_reduce_empty (W : World) (f : Val) (hf : f.ordinary = true) : Always W { pre := Plays W "reduce" [f, .nil] f (.call [] .ret) } := by
  refine plays_of (us := [f]) hd_reduce (fun n h u hu => ?_) fun s e J hc hu => follows_reduce_empty hf [f] (by simp) s e J hc hu
  exact h u (by simp only [List.mem_singleton] at hu; simp [hu])

example (W : World) : Always W { pre := Plays W "reduce" [.bi .add, .nil] (.bi .add) (.call [] .ret) } := C70_reduce_empty _ _ (by decide)

/-- C70: `(foreach x l body ...)` calls the function `(lambda (x) body ...)`, made once, with each element of `l`, in order. -/
theorem C70_foreach (W : World) : Always W
    { pre := fun t s => ∀ (x l : Val) (body : List Val) (e : Nat), t = .eval (form "foreach" (x :: l :: body)) e → CoreHere s.heap e → ∃ s1, Quiet s s1 ∧
        ∀ (f : Val) (xs : List Val) (s2 : St), f.ordinary = true → EvalsTo W e [form "lambda" (vlist [x] :: body), l] s1 [f, vlist xs] s2 → LibraryIntact s2.heap →
          ∃ r, Follows W f (newIn s s1) (mapPlan xs) s2 r ∧ UpTo r (eval W (form "foreach" (x :: l :: body)) e s) } := by
  refine always_of_watchOk W ⟨fun t s hi ht x l body e htask hh => ?_, fun _ _ _ _ _ _ => trivial⟩
  subst htask
  obtain ⟨s1, q1, e1⟩ := C41_foreach (W := W) hh x l body
  refine ⟨s1, q1, fun f xs s2 hf hev hc => ?_⟩
  have hargs := vok_args ht.1
  have hb : VOk s.heap.length (form "lambda" (vlist [x] :: body)) := by
    refine ⟨trivial, ⟨hargs x (by simp), trivial⟩, ?_⟩
    have : VOk s.heap.length (vlist (x :: l :: body)) := ht.1.2
    exact this.2.2
  have hu := (Under.start (vs := [form "lambda" (vlist [x] :: body), l, .lam [] "" .nil .nil false e]) hi (by
    intro v hv
    simp only [List.mem_cons, List.not_mem_nil, or_false] at hv
    rcases hv with rfl | rfl | rfl
    · exact hb
    · exact hargs _ (by simp)
    · exact ⟨ht.2, trivial, trivial⟩)).still (q1.still _)
  have hJ : madeBy (fun _ => False) s s1 = newIn s s1 := by funext j; simp [madeBy]
  rw [hJ] at hu
  obtain ⟨h1, h2⟩ := hd_map.reaches (W := W) (e := e) (s0 := s1) ((Sc.base (hh.2.base.mono q1.heap)).lookup_known rfl known_map)
  have hcall : eval W (form "map" [form "lambda" (vlist [x] :: body), l]) e s1 = callFn W k_map [f, vlist xs] e s2 := eval_reaches h1 ⟨s1, h2, hev⟩
  rw [e1, hcall]
  cases hev with
  | cons hev1 hev2 =>
    cases hev2 with
    | cons hev2 hev3 =>
      cases hev3
      have hu1 := (hu.eval (by simp) (by simp) hev1).1
      have hu2 := (hu1.eval (by simp) (by simp) hev2).1
      have hu3 : Under s2 (f :: xs) (newIn s s1) := by
        refine (hu2.elems (xs := xs) (by simp)).subset (fun v hv => ?_) fun _ h => h
        rcases List.mem_cons.1 hv with rfl | hv
        · exact List.mem_append_right _ (by simp)
        · exact List.mem_append_left _ hv
      exact follows_map hf (f :: xs) (by simp) xs (fun x hx => by simp [hx]) s2 e _ (hu3.base hc) hu3

/-! ### What follows from it -/

theorem call_println (x : Val) (e : Nat) (s : St) : callFn W (.bi .println) [x] e s = .ok .nil { s with out := s.out ++ (x.str ++ ['\n']) } := by
  refine call_bi ?_
  show (do printM (joinArgs [x] ++ ['\n']); pure Val.nil) s = _
  rw [show joinArgs [x] = x.str from rfl]
  rfl

theorem Still.intact {own : Nat → Prop} {s s1 : St} {f : Frame} (h : Still own s s1) (h0 : s.heap[0]? = some f) (hp : f.parent = none) (ho : ¬ own 0) (hl : LibraryIntact s.heap) :
    s1.heap[0]? = some f ∧ LibraryIntact s1.heap := by
  have hlt : 0 < s.heap.length := by
    rcases Nat.eq_zero_or_pos s.heap.length with h1 | h1
    · rw [List.getElem?_eq_none (by omega)] at h0; cases h0
    · exact h1
  have h1 := (h.heap 0 hlt ho).trans h0
  refine ⟨h1, fun x r hx => ?_⟩
  rw [← hl x r hx]
  unfold lookup
  simp only [lookupAux, h0, h1, hp]

theorem follows_println {f : Frame} (hp : f.parent = none) (xs : List Val) : ∀ (own : Nat → Prop) (s : St) (k : Val → Val) (r : Res Val), s.heap[0]? = some f → ¬ own 0 → LibraryIntact s.heap →
    Follows W (.bi .println) own ((mapPlan xs).then k) s r →
    ∃ s', r = .ok (k (vlist (xs.map fun _ => .nil))) s' ∧ s'.out = s.out ++ (xs.map fun x => x.str ++ ['\n']).flatten := by
  induction xs with
  | nil =>
    intro own s k r h0 ho hl hf
    cases hf with
    | ret h => exact ⟨_, rfl, by simp [h.out]⟩
  | cons x xs ih =>
    intro own s k r h0 ho hl hf
    have hlt : 0 < s.heap.length := by
      rcases Nat.eq_zero_or_pos s.heap.length with h1 | h1
      · rw [List.getElem?_eq_none (by omega)] at h0; cases h0
      · exact h1
    have hc := fun s1 => call_println (W := W) x 0 s1
    have key : ∀ s1 : St, Still own s s1 → ({ s1 with out := s1.out ++ (x.str ++ ['\n']) } : St).heap[0]? = some f ∧ LibraryIntact s1.heap := fun s1 h => h.intact h0 hp ho hl
    cases hf with
    | @call _ _ _ _ s1 s2 y _ h1 h2 _ _ h5 =>
      rw [hc] at h2
      injection h2 with hy hs2
      subst hy; subst hs2
      have hthen : ((mapPlan xs).then (.cons .nil)).then k = (mapPlan xs).then fun v => k (.cons .nil v) := by
        have : ∀ p : Plan, (p.then (.cons .nil)).then k = p.then fun v => k (.cons .nil v) := by
          intro p
          induction p with
          | ret v => rfl
          | call as nx ih => simp only [Plan.then, ih]
        exact this _
      obtain ⟨s', h6, h7⟩ := ih _ _ (fun v => k (.cons .nil v)) r (key s1 h1).1 (fun hm : madeBy own s s1 0 => hm.elim ho fun hm => absurd hm.1 (by omega)) (key s1 h1).2 (hthen ▸ h5)
      refine ⟨s', h6, ?_⟩
      rw [h7]
      show (s1.out ++ _) ++ _ = _
      rw [h1.out]; simp
    | @stop _ _ _ _ s1 _ _ h2 h3 => rw [hc] at h2; exact absurd h2.symm (h3 _ _)
    | @disturbed _ _ _ _ s1 s2 y _ h1 h2 h3 =>
      rw [hc] at h2
      injection h2 with hy hs2
      subst hs2
      exact absurd (key s1 h1).2 h3

theorem Plan.then_id (p : Plan) : p.then id = p := by
  induction p with
  | ret v => rfl
  | call as nx ih => simp only [Plan.then, ih]

/-- C70: in particular `(map println l)` prints the elements of `l`, one on each line, in order, and returns a list of as many (). -/
theorem C70_map_println (W : World) : Always W
    { pre := fun t s => ∀ (e : Nat) (args xs : List Val) (s1 : St), t = .eval (form "map" args) e → lookup s.heap e "map" = alGet "map" coreEnv →
        EvalsTo W e args s [.bi .println, vlist xs] s1 → LibraryIntact s1.heap →
        ∃ s2, eval W (form "map" args) e s = .ok (vlist (xs.map fun _ => .nil)) s2 ∧ s2.out = s1.out ++ (xs.map fun x => x.str ++ ['\n']).flatten } := by
  refine always_of_watchOk W ⟨fun t s hi ht e args xs s1 htask hl hev hc => ?_, fun _ _ _ _ _ _ => trivial⟩
  subst htask
  obtain ⟨hi1, _, hv⟩ := evalsTo_ok hev hi ht.2 (vok_args ht.1)
  obtain ⟨h1, h2⟩ := hd_map.reaches (W := W) hl
  have hu := Under.start (vs := .bi .println :: xs) hi1 (fun u hu => by
    rcases List.mem_cons.1 hu with rfl | hu
    · exact hv _ (by simp)
    · exact vok_elems (hv (vlist xs) (by simp)) u hu)
  obtain ⟨r, h3, h4⟩ := follows_map (W := W) (f := .bi .println) (by decide) (.bi .println :: xs) (by simp) xs (fun x hx => by simp [hx]) s1 e _ (hu.base hc) hu
  have hpos := hi1.heap.pos
  have h0 : s1.heap[0]? = some s1.heap[0] := List.getElem?_eq_getElem hpos
  have hp : s1.heap[0].parent = none := by
    have := hi1.heap.parent 0 _ h0
    cases hf : s1.heap[0].parent with
    | none => rfl
    | some p => rw [hf] at this; exact absurd this (Nat.not_lt_zero p)
  rw [← Plan.then_id (mapPlan xs)] at h3
  obtain ⟨s2, h5, h6⟩ := follows_println hp xs _ s1 id r h0 id hc h3
  subst h5
  refine ⟨s2, ?_, h6⟩
  rw [show eval W (form "map" args) e s = callFn W k_map [.bi .println, vlist xs] e s1 from eval_reaches h1 ⟨s, h2, hev⟩]
  rcases h4 with h4 | ⟨_, _, _, h4, _⟩
  · exact h4
  · cases h4

/-! ### Concrete cases -/

/-- After loading the library, `(map println '(1 2))` at top level meets the hypotheses. -/
example (inp : List (List Char)) : lookup (topSt (initSt inp) coreEnv).heap 0 "map" = alGet "map" coreEnv ∧
    EvalsTo W 0 [.atom "println", vlist [.atom "quote", vlist [.num 1, .num 2]]] (topSt (initSt inp) coreEnv) [.bi .println, vlist [.num 1, .num 2]] (topSt (initSt inp) coreEnv) ∧
    LibraryIntact (topSt (initSt inp) coreEnv).heap ∧ (Val.bi .println).ordinary = true := by
  refine ⟨(coreAt_loaded _).sees _ _ (by decide +kernel), .cons (s1 := topSt (initSt inp) coreEnv) ?_ (.cons ?_ .nil), fun x r hx => (coreAt_loaded _).sees x r hx, by decide⟩
  · have hl : lookup (topSt (initSt inp) coreEnv).heap 0 "println" = none := (coreAt_loaded _).sees _ _ (by decide +kernel)
    rw [eval_eq]
    show evalStep (perform W) (perform W) (.atom "println") 0 _ = _
    unfold evalStep
    rw [M.bind_ok (isMacroCallM_run _ _ _), show isMacroCallIn (lookup (topSt (initSt inp) coreEnv).heap 0) (.atom "println") = false from rfl, M.ite_neg (by simp),
      show evExpr (perform W) (perform W) (.atom "println") 0 = evAtom "println" 0 from rfl]
    unfold evAtom
    rw [M.ite_neg (by decide), M.bind_ok (lookupM_run _ _ _), hl]
    rfl
  · exact (eval_sform W .quote [vlist [.num 1, .num 2]] 0 _ (topSt_notMacro rfl)).trans rfl

/-- What the plans say: `reduce` with the function `f`. -/
example (a x y : Val) : reducePlan a [x, y] = .call [a, x] fun v => .call [v, y] fun w => .ret w := rfl
example (x y : Val) : somePlan [x, y] = .call [x] fun v => if v = .nil then .call [y] (fun w => if w = .nil then .ret .nil else .ret w) else .ret v := rfl
example (x y : Val) : mapPlan [x, y] = .call [x] fun v => .call [y] fun w => .ret (vlist [v, w]) := rfl

/-- A function that keeps something between calls is an ordinary function. -/
example (e : Nat) : (Val.lam ["x"] "" (vlist [form "set!" [.atom "n", form "+" [.atom "n", .atom "x"]]]) .nil false e).ordinary = true := rfl

end L1
