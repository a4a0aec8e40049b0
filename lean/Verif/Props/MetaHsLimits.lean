import Verif.Props.MetaHsExample
/-!
# C74: where programs of the example `meta_hs` do not compute what they say
-/

namespace Metaparse

open HsEval

variable {E : Env (List Chr)}

/-- `n + 1` -/
def incBody : HsExp := .op (txt "+") varN (.num 1)

theorem inc_def : HsDef false (txt "inc n = n + 1") (txt "inc") [txt "n"] incBody := by
  have hn := text_var "n" " " "+ 1" (by decide) (by decide) (by decide) (by decide) (by decide)
  have h1 := text_num "1" "" "" 1 (by decide) (by decide) (by decide) (by decide) (by decide) (by decide) (by decide)
  have hp := HsText.op (l := 1) (o := txt "+") (ws := txt " ") (by decide) (hn.down (by decide) (by decide)) (by decide)
    (h1.down (by decide) (by decide))
  exact ⟨txt " ", txt "n = n + 1", by decide, isName_of_check (by decide), by decide, by decide,
    .param (w := txt "n") (ws := txt " ") name_n (by decide) (by decide)
      (.body (ws := txt " ") (by decide) (hp.down (l := 0) (by decide) (by decide)))⟩

theorem g_def : HsDef false (txt "g n = inc n") (txt "g") [txt "n"] (.app (.var (txt "inc")) varN) := by
  have hi := text_var "inc" " " "n" (by decide) (by decide) (by decide) (by decide) (by decide)
  have hn := text_var "n" "" "" (by decide) (by decide) (by decide) (by decide) (by decide)
  have ha := HsText.app (hi.down (l := 3) (by decide) (by decide)) hn
  exact ⟨txt " ", txt "n = inc n", by decide, isName_of_check (by decide), by decide, by decide,
    .param (w := txt "n") (ws := txt " ") name_n (by decide) (by decide)
      (.body (ws := txt " ") (by decide) (ha.down (l := 0) (by decide) (by decide)))⟩

theorem h_def : HsDef false (txt "h n = inc 5") (txt "h") [txt "n"] (.app (.var (txt "inc")) (.num 5)) := by
  have hi := text_var "inc" " " "5" (by decide) (by decide) (by decide) (by decide) (by decide)
  have hn := text_num "5" "" "" 5 (by decide) (by decide) (by decide) (by decide) (by decide) (by decide) (by decide)
  have ha := HsText.app (hi.down (l := 3) (by decide) (by decide)) hn
  exact ⟨txt " ", txt "n = inc 5", by decide, isName_of_check (by decide), by decide, by decide,
    .param (w := txt "n") (ws := txt " ") name_n (by decide) (by decide)
      (.body (ws := txt " ") (by decide) (ha.down (l := 0) (by decide) (by decide)))⟩

/-- `inc n = n + 1`, `g n = inc n` and `h n = inc 5` -/
def incCommands : List HsCommand := [.define (txt "inc n = n + 1"), .define (txt "g n = inc n"), .define (txt "h n = inc 5")]

/-- The program that `incCommands` writes. -/
def incProgram : HsProgram := [(txt "h", .function [txt "n"] (.app (.var (txt "inc")) (.num 5))),
  (txt "g", .function [txt "n"] (.app (.var (txt "inc")) varN)), (txt "inc", .function [txt "n"] incBody)]

theorem inc_written : Written false [] incCommands incProgram := .define inc_def (.define g_def (.define h_def .nil))

/-- The environment that `incCommands` makes. -/
def incEnv : HsEnv := (txt "h", itemAst (.function [txt "n"] (.app (.var (txt "inc")) (.num 5)))) ::
  (txt "g", itemAst (.function [txt "n"] (.app (.var (txt "inc")) varN))) ::
  (txt "inc", itemAst (.function [txt "n"] incBody)) :: metaHs

theorem inc_build (h : E.MetaHs) : build E metaHs incCommands = .ok incEnv := by
  simp only [incCommands, build, define_defTree (C72_complete h inc_def), define_defTree (C72_complete h g_def),
    define_defTree (C72_complete h h_def), Out.bind_ok]
  rfl

theorem get_function {env : HsEnv} {f p : List Chr} {ps : List (List Chr)} {b : HsExp}
    (h : env.lookup f = some (itemAst (.function (p :: ps) b))) :
    HsEval.get env f = .ok (.closure (lams ps (ast b)) p env env) := by
  unfold HsEval.get
  simp only [h]
  rw [itemAst, bind_topBound, lams, List.foldr_cons, bind_lambda, Out.bind_ok, answer_layer, layer, answer_layer (.members _)]
  rfl

/-- A parameter is not accepted as the argument of a definition that computes with it: the class that stands for it
is `lazy::value<lazy::value<...>>`, whose member `type` is not a number. The program says that the result is
`k + 1`. -/
theorem C74_parameter (h : E.MetaHs) (k : Int) : ∃ env, build E metaHs incCommands = .ok env ∧
    callNumber env (txt "g") [k] = .ill .noValue ∧ (FitsInt (k + 1) → HasResult incProgram (txt "g") [k] (k + 1)) := by
  refine ⟨incEnv, inc_build h, ?_, fun hk => ?_⟩
  · rw [callNumber, get_function rfl, Out.bind_ok, applyAll]
    rw [answer_eq_of_in (n := 16) (x := .ill .noValue) (by rfl) (by simp)]
    rfl
  · refine (hasResult_one rfl).2 ⟨.int (k + 1), ?_, rfl⟩
    exact .last (.function rfl rfl) (.op (ev_n (.delayed (ev_n .given))) .num rfl rfl (fun _ => .inl ⟨_, rfl⟩) (fitting_eq hk))

/-- Nor is a number. -/
theorem C74_number (h : E.MetaHs) (k : Int) : ∃ env, build E metaHs incCommands = .ok env ∧
    callNumber env (txt "h") [k] = .ill .noValue ∧ HasResult incProgram (txt "h") [k] 6 := by
  refine ⟨incEnv, inc_build h, ?_, ?_⟩
  · rw [callNumber, get_function rfl, Out.bind_ok, applyAll]
    rw [answer_eq_of_in (n := 16) (x := .ill .noValue) (by rfl) (by simp)]
    rfl
  · refine (hasResult_one rfl).2 ⟨.int 6, ?_, rfl⟩
    exact .last (.function rfl rfl) (.op (ev_n (.delayed .num)) .num rfl rfl (fun _ => .inl ⟨_, rfl⟩) rfl)

/-! ## Definitions without parameters -/

/-- `if 1<2 then 1 else c` -/
def loopBody : HsExp := .cond (.op (txt "<") (.num 1) (.num 2)) (.num 1) (.var (txt "c"))

theorem loop_def : HsDef false (txt "c = if 1<2 then 1 else c") (txt "c") [] loopBody := by
  have hn := text_num "1" "" "<2 then 1 else c" 1 (by decide) (by decide) (by decide) (by decide) (by decide) (by decide)
    (by decide)
  have h2 := text_num "2" " " "then 1 else c" 2 (by decide) (by decide) (by decide) (by decide) (by decide)
    (by decide) (by decide)
  have hc := HsText.op (l := 0) (o := txt "<") (ws := []) (by decide) (hn.down (by decide) (by decide)) (by decide)
    (h2.down (by decide) (by decide))
  have h1 := text_num "1" " " "else c" 1 (by decide) (by decide) (by decide) (by decide) (by decide)
    (by decide) (by decide)
  have hv := text_var "c" "" "" (by decide) (by decide) (by decide) (by decide) (by decide)
  have hall := HsText.cond (lax := false) (ws1 := txt " ") (ws2 := txt " ") (ws3 := txt " ") (by decide) (by decide) (by decide)
    (fun _ => by decide) hc (by decide) (h1.down (by decide) (by decide)) (by decide) (hv.down (l := 0) (by decide) (by decide))
  exact ⟨txt " ", txt "= if 1<2 then 1 else c", by decide, isName_of_check (by decide), by decide, by decide,
    .body (ws := txt " ") (by decide) (hall.down (l := 0) (by decide) (by decide))⟩

/-- A definition without parameters that mentions itself is never finished, even when what it says has a result. -/
theorem C74_no_parameters (h : E.MetaHs) : ∃ env, build E metaHs [.define (txt "c = if 1<2 then 1 else c")] = .ok env ∧
    callNumber env (txt "c") [] = .deep ∧ HasResult [(txt "c", .function [] loopBody)] (txt "c") [] 1 := by
  refine ⟨(txt "c", itemAst (.function [] loopBody)) :: metaHs, ?_, ?_, ?_⟩
  · simp only [build, define_defTree (C72_complete h loop_def), Out.bind_ok]
  · have key : ∀ n top, top = (txt "c", itemAst (.function [] loopBody)) :: metaHs →
        answerIn n (.bind (itemAst (.function [] loopBody)) top top) = .deep := by
      intro n
      induction n using Nat.strongRecOn with
      | _ n ih =>
        intro top ht
        match n with
        | 0 => rfl
        | 1 => rfl
        | n + 2 =>
          have hF : ∃ F, answer (.bind (.application (.application (.value (.curry .lazyIf []))
              (ast (.op (txt "<") (.num 1) (.num 2)))) (ast (.num 1))) top top) = .ok F :=
            ⟨_, answer_of_in (n := 8) (by subst ht; rfl)⟩
          have hc : answerIn n (.bind (.ref (txt "c")) top top) = .deep := by
            cases n with
            | zero => rfl
            | succ n =>
              have := ih n (by omega) top ht
              subst ht
              exact this
          have hs : answerIn (n + 2) (.bind (itemAst (.function [] loopBody)) top top) =
              (answerIn n (.bind (.application (.application (.value (.curry .lazyIf []))
                (ast (.op (txt "<") (.num 1) (.num 2)))) (ast (.num 1))) top top)).bind fun g =>
              (answerIn n (.bind (.ref (txt "c")) top top)).bind fun a => .ok (Cls.lapp g a) := rfl
          rw [hs, hc]
          obtain ⟨F, hF⟩ := hF
          rcases (answer_isLim _).1 n with h' | h'
          · rw [h']; rfl
          · rw [h', hF]; rfl
    have hd : answer (.bind (itemAst (.function [] loopBody)) ((txt "c", itemAst (.function [] loopBody)) :: metaHs)
        ((txt "c", itemAst (.function [] loopBody)) :: metaHs)) = .deep := by
      obtain ⟨n, hn⟩ := exists_answerIn (.bind (itemAst (.function [] loopBody))
        ((txt "c", itemAst (.function [] loopBody)) :: metaHs) ((txt "c", itemAst (.function [] loopBody)) :: metaHs))
      rw [← hn]
      exact key n _ rfl
    have hg : HsEval.get ((txt "c", itemAst (.function [] loopBody)) :: metaHs) (txt "c") = .deep := by
      unfold HsEval.get
      have : List.lookup (txt "c") ((txt "c", itemAst (.function [] loopBody)) :: metaHs) =
        some (itemAst (.function [] loopBody)) := rfl
      simp only [this, hd]
      rfl
    rw [callNumber, hg]
    rfl
  · refine ⟨.int 1, .int 1, .definition rfl rfl ?_, .nil, rfl⟩
    exact .thenBranch (k := 1) (.op .num .num rfl rfl (fun _ => .inl ⟨_, rfl⟩) rfl) rfl (by decide) .num

/-! ## The hypotheses can be met -/

/-- A program that `C74_complete`, `C74_exact`, `C74_correct` and `C74_builds` are about, with a result. -/
example : Written false [] exampleCommands exampleProgram ∧ exampleProgram.Fine ∧ IsName (txt "fib") ∧
    HasResult exampleProgram (txt "fib") [6] 13 :=
  ⟨example_written, example_fine, isName_of_check (by decide), (hasResult_one fib_lookup).2
    ⟨.int 13, fib_evals 6 (i := 6) (t := .given 6) rfl (by decide) .given (by decide), rfl⟩⟩

theorem written_imports {lax : Bool} {P Q : HsProgram} {cs : List HsCommand} (h : Written lax P cs Q) : NamedImports cs := by
  induction h with
  | nil => intro c hc; cases hc
  | constant hw _ ih =>
    intro c hc
    rcases List.mem_cons.1 hc with rfl | hc
    · exact hw
    · exact ih c hc
  | native hw _ ih =>
    intro c hc
    rcases List.mem_cons.1 hc with rfl | hc
    · exact hw
    · exact ih c hc
  | define _ _ ih =>
    intro c hc
    rcases List.mem_cons.1 hc with rfl | hc
    · trivial
    · exact ih c hc

/-- A program and a call that `C74_sound` is about. -/
example : ∃ env, (metaHsEnv .cpp98).MetaHs ∧ NamedImports exampleCommands ∧
    build (metaHsEnv .cpp98) metaHs exampleCommands = .ok env ∧ callNumber env (txt "fact") [4] = .ok 24 := by
  obtain ⟨env, hb, hk⟩ := C74_complete (metaHsEnv_ok .cpp98) example_written example_fine (isName_of_check (by decide))
    ((hasResult_one fact_lookup).2 ⟨.int 24, fact_evals 4 (i := 4) (t := .given 4) rfl (by decide) .given (by decide), rfl⟩)
  exact ⟨env, metaHsEnv_ok _, written_imports example_written, hb, hk⟩

/-- The output of `main_in_haskell.cpp`. -/
example (h : E.MetaHs) : callExample E (txt "fib") 6 = .ok 13 ∧ callExample E (txt "fact") 4 = .ok 24 ∧
    callExample E (txt "times4") 3 = .ok 12 ∧ callExample E (txt "times11") 2 = .ok 22 :=
  ⟨(C75_fib h (by decide) _).2 ⟨rfl, by decide, by decide⟩, (C75_fact h (by decide) _).2 ⟨rfl, by decide, by decide⟩,
    (C75_times4 h _ _).2 ⟨rfl, by decide, by decide⟩, (C75_times11 h _ _).2 ⟨rfl, by decide, by decide⟩⟩

/-- A program and a function that `C74_unique`, `C74_correct`, `C74_builds` and `C74_exact` are about. -/
example : ∃ env, build (metaHsEnv .cpp11) metaHs exampleCommands = .ok env :=
  C74_builds (metaHsEnv_ok .cpp11) example_written

/-- `C75_handcrafted`: both compute the same for 6. -/
example (m : Int) : callExample (metaHsEnv .cpp11) (txt "fib") 6 = .ok m ↔ Handcrafted.fib 6 = .ok m :=
  (C75_handcrafted (metaHsEnv_ok .cpp11) (by decide) m).1

/-- `C74_parameter` and `C74_number`: the environment they are about is there. -/
example : (∃ env, build (metaHsEnv .cpp98) metaHs incCommands = .ok env ∧ callNumber env (txt "g") [4] = .ill .noValue) ∧
    HasResult incProgram (txt "g") [4] 5 := by
  obtain ⟨env, h1, h2, h3⟩ := C74_parameter (metaHsEnv_ok .cpp98) 4
  exact ⟨⟨env, h1, h2⟩, h3 ⟨by decide, by decide⟩⟩

end Metaparse
