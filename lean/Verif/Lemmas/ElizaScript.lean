import Verif.Lemmas.ElizaLoop
import Verif.Lemmas.ElizaText
import Verif.Lemmas.SenScript
/-
The definitions and the tests of examples/eliza.l1.
-/
set_option autoImplicit false
namespace L1

variable {W : World}

/-! ### Definitions -/

/-- A definition that has been replaced. -/
theorem SenPre.drop {h : Heap} {A B : List (String × Val)} {n : String} {w : Val} (hp : SenPre h (A ++ (n, w) :: B)) (hn : (alGet n A).isSome = true) : SenPre h (A ++ B) := by
  refine ⟨⟨hp.prog.core, fun x v hx => hp.prog.binds x v ?_⟩, hp.caar, hp.cddr⟩
  rw [alGet_append] at hx ⊢
  rw [alGet]
  split
  · next h =>
    subst h
    obtain ⟨u, hu⟩ := Option.isSome_iff_exists.1 hn
    rw [hu] at hx ⊢
    exact hx
  · exact hx

theorem SenStep.drop {U A B : List (String × Val)} {n : String} {w x : Val} (h : SenStep W U (A ++ (n, w) :: B) x) (hn : (alGet n A).isSome = true) : SenStep W U (A ++ B) x := fun s hp => by
  obtain ⟨v, s1, e1, p1, w1⟩ := h s hp
  exact ⟨v, s1, e1, p1.drop hn, w1⟩

/-- `(def name ())`. -/
theorem sen_def_nil {U : List (String × Val)} {name : String} (ht : name ≠ "t") (hk : known name = none) (h1 : name ≠ "caar") (h2 : name ≠ "cddr") :
    SenStep W U ((name, .nil) :: U) (vlist [.atom "def", .atom name, .nil]) := by
  intro s hp
  refine ⟨.nil, { s with heap := heapSet s.heap 0 name .nil }, ?_, hp.set .nil hk h1 h2, by simp, rfl, rfl, rfl⟩
  refine (eval_sform W .def_ [.atom name, .nil] 0 s (hp.prog.core.base.notMacro_sf known_def)).trans ?_
  show evDef (perform W) 0 (vlist [.atom name, .nil]) s = _
  obtain ⟨s1, e1, q1⟩ := G.nil (W := W) s 0 s (.refl _)
  have hn : perform W (.eval .nil 0) s = .ok .nil s := show eval W .nil 0 s = _ by rw [eval_eq]; rfl
  simp only [vlist_cons, vlist_nil, evDef]
  rw [M.bind_ok (extend_ok hn), M.bind_ok (extend_ok (setTop0 hp.prog ht .nil))]
  rfl

/-- The first definition of `segment-pattern?`, which is replaced by the second one. -/
def oldSegment : Val := match defOf (elizaForms.getD 14 .nil) with | some p => p.2 | none => .nil

set_option maxRecDepth 100000 in
theorem el_defs : SenSteps W [("SPACE", .atom " ")] (elizaForms.take 28) elizaDefs :=
  .cons (sen_defn (f := z_assoc) rfl rfl (by decide) (by decide +kernel) (by decide) (by decide))
  (.cons (sen_defn (f := z_mklist) rfl rfl (by decide) (by decide +kernel) (by decide) (by decide))
  (.cons (sen_defn (f := z_variableP) rfl rfl (by decide) (by decide +kernel) (by decide) (by decide))
  (.cons (sen_defn (f := z_cadr) rfl rfl (by decide) (by decide +kernel) (by decide) (by decide))
  (.cons (sen_defn (f := z_assoc_sub) rfl rfl (by decide) (by decide +kernel) (by decide) (by decide))
  (.cons (sen_defn (f := z_tree_sub) rfl rfl (by decide) (by decide +kernel) (by decide) (by decide))
  (.cons (sen_defn (f := z_sublis) rfl rfl (by decide) (by decide +kernel) (by decide) (by decide))
  (.cons (sen_def_nil (by decide) (by decide +kernel) (by decide) (by decide))
  (.cons (sen_def (v := Named.val []) (by decide) (by decide +kernel) (by decide) (by decide) rfl)
  (.cons (sen_defn (f := z_get_binding) rfl rfl (by decide) (by decide +kernel) (by decide) (by decide))
  (.cons (sen_defn (f := z_binding_val) rfl rfl (by decide) (by decide +kernel) (by decide) (by decide))
  (.cons (sen_defn (f := z_lookup) rfl rfl (by decide) (by decide +kernel) (by decide) (by decide))
  (.cons (sen_defn (f := z_extend_bindings) rfl rfl (by decide) (by decide +kernel) (by decide) (by decide))
  (.cons (sen_defn (f := z_match_variable) rfl rfl (by decide) (by decide +kernel) (by decide) (by decide))
  (.cons (sen_defn (f := oldSegment) rfl rfl (by decide) (by decide +kernel) (by decide) (by decide))
  (.cons (SenStep.drop (A := [("segment-pattern?", z_segment_patternP)]) (n := "segment-pattern?") (w := oldSegment)
    (sen_defn (f := z_segment_patternP) rfl rfl (by decide) (by decide +kernel) (by decide) (by decide)) rfl)
  (.cons (sen_defn (f := z_segment_match) rfl rfl (by decide) (by decide +kernel) (by decide) (by decide))
  (.cons (sen_defn (f := z_pat_match) rfl rfl (by decide) (by decide +kernel) (by decide) (by decide))
  (.cons (sen_defn (f := z_niladd) rfl rfl (by decide) (by decide +kernel) (by decide) (by decide))
  (.cons (sen_defn (f := z_position) rfl rfl (by decide) (by decide +kernel) (by decide) (by decide))
  (.cons (sen_defn (f := z_subseq) rfl rfl (by decide) (by decide +kernel) (by decide) (by decide))
  (.cons (sen_defn (f := z_rule_pattern) rfl rfl (by decide) (by decide +kernel) (by decide) (by decide))
  (.cons (sen_defn (f := z_rule_responses) rfl rfl (by decide) (by decide +kernel) (by decide) (by decide))
  (.cons (sen_def (v := elizaRulesVal) (by decide) (by decide +kernel) (by decide) (by decide) rfl)
  (.cons (sen_defn (f := z_switch_viewpoint) rfl rfl (by decide) (by decide +kernel) (by decide) (by decide))
  (.cons (sen_defn (f := z_apply_rule) rfl rfl (by decide) (by decide +kernel) (by decide) (by decide))
  (.cons (sen_defn (f := z_use_eliza_rules) rfl rfl (by decide) (by decide +kernel) (by decide) (by decide))
  (.cons (sen_defn (f := z_eliza) rfl rfl (by decide) (by decide +kernel) (by decide) (by decide)) .nil)))))))))))))))))))))))))))

theorem SenPre.elAt {h : Heap} (hp : SenPre h elizaDefs) : ElAt h := ⟨hp.prog, hp.caar⟩

end L1
