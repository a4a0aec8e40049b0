import Verif.Props.Folds
import Verif.Props.Sequences
/-!
# The direction of a fold (C59)

`foldl` and `foldr` are given an operation with the arguments (state, result).  When the direction
makes no difference for the operation, it makes none for the parser; `swap` turns the operation of a
left fold into that of a right fold.
-/

namespace Metaparse

variable {I : Type} {E : Env I}

theorem ResultsIn.steps {K : Val → Prop} {p : P} (hp : ResultsIn E K p) {s : I} {pos : Pos}
    {vs : List Val} {s' : I} {pos' : Pos} (h : Steps E p s pos vs s' pos') : ∀ v ∈ vs, K v := by
  induction h with
  | nil => intro v hv; cases hv
  | cons ha _ ih =>
    intro v hv
    cases hv with
    | head => exact hp _ _ _ _ _ ha
    | tail _ hv => exact ih v hv

theorem ClosedOn.leftFold {K : Val → Prop} {op : Val → Val → Val} (h : ClosedOn K op) {x : Val}
    (hx : K x) {vs : List Val} (hvs : ∀ v ∈ vs, K v) :
    Metaparse.leftFold op x vs = .ok (vs.foldl op x) ∧ K (vs.foldl op x) := by
  induction vs generalizing x with
  | nil => exact ⟨rfl, hx⟩
  | cons v vs ih =>
    have hK := h.2 x v hx (hvs v (by simp))
    have hv : (op x v).force = .ok (op x v) := h.1 _ hK
    simp only [Metaparse.leftFold, hv, Out.bind_ok, List.foldl]
    exact ih hK fun w hw => hvs w (by simp [hw])

theorem ClosedOn.rightFold {K : Val → Prop} {op : Val → Val → Val} (h : ClosedOn K op) {x : Val}
    (hx : K x) {vs : List Val} (hvs : ∀ v ∈ vs, K v) :
    Metaparse.rightFold op x vs = .ok (vs.foldr (fun v y => op y v) x) ∧
      K (vs.foldr (fun v y => op y v) x) := by
  induction vs with
  | nil => exact ⟨rfl, hx⟩
  | cons v vs ih =>
    obtain ⟨ih1, ih2⟩ := ih fun w hw => hvs w (by simp [hw])
    have hK := h.2 _ v ih2 (hvs v (by simp))
    simp only [Metaparse.rightFold, ih1, Out.bind_ok, List.foldr]
    exact ⟨h.1 _ hK, hK⟩

/-- If the ordinary folds agree on the lists of results, the parsers have the same outcome. -/
theorem foldl_foldr_equivalent {K : Val → Prop} {p : P} {x : Val} {op op' : Val → Val → Val}
    (hp : ResultsIn E K p) (hop : ClosedOn K op) (hop' : ClosedOn K op') (hx : K x)
    (heq : ∀ vs : List Val, (∀ v ∈ vs, K v) → vs.foldl op x = vs.foldr (fun v y => op' y v) x) :
    Equivalent E (.foldl p x op) (P.foldr p x op') := by
  intro s pos
  have hxv : x.force = .ok x := hop.1 x hx
  unfold P.foldr
  have hst : ∀ {vs s' pos'}, Steps E p s pos vs s' pos' →
      ∃ st', foldStates op x vs = .ok st' ∧ IsValue st' := by
    intro vs s' pos' h
    have hvs := hp.steps h
    rcases List.eq_nil_or_concat vs with rfl | ⟨ws, w, rfl⟩
    · exact ⟨x, rfl, hxv⟩
    · rw [List.concat_eq_append] at hvs ⊢
      obtain ⟨h1, h2⟩ := hop.leftFold hx (vs := ws) fun v hv => hvs v (by simp [hv])
      exact ⟨op (ws.foldl op x) w, by rw [foldStates_snoc, hxv, Out.bind_ok, h1, Out.bind_ok],
        hop.1 _ (hop.2 _ _ h2 (hvs w (by simp)))⟩
  rcases run_cases E p s pos with ⟨vs, s', pos', m, e, hm⟩ | ⟨vs, s', pos', f, h, hf⟩ |
    ⟨vs, s', pos', h, hd⟩ | h
  · have hvs := hp.steps hm.1
    rw [run_foldl_maximal hm, run_foldrSWP_maximal hm, hxv, Out.bind_ok, (hop.leftFold hx hvs).1,
      run_ret, Out.bind_ok, Out.bind_ok, foldrOver, (hop'.rightFold hx hvs).1, Out.bind_ok,
      heq vs hvs]
  · obtain ⟨st', hs', _⟩ := hst h
    rw [run_foldl_steps h, run_foldrSWP_steps h, hs', Out.bind_ok, run_foldl, run_foldrSWP, hf]
    rfl
  · obtain ⟨st', hs', _⟩ := hst h
    rw [run_foldl_steps h, run_foldrSWP_steps h, hs', Out.bind_ok, run_foldl, run_foldrSWP, hd]
    rfl
  · rw [foldrSWP_infinite h]
    obtain ⟨n, hn⟩ := exists_eval E (.foldl p x op) s pos
    refine Classical.byContradiction fun hd => ?_
    obtain ⟨vs, s', pos', hs, hend⟩ := foldl_ends (n := n) (by rw [hn]; exact hd)
    obtain ⟨v, s2, pos2, ha⟩ := h.accepts hs
    rcases hend with ⟨m, e, hr⟩ | ⟨f, hf⟩ | ⟨st', f, h', hf⟩
    · exact ha.not_rejects hr
    · rw [Accepts, hf] at ha; cases ha
    · obtain ⟨st2, h2, hv⟩ := hst hs
      rw [h2] at h'; cases h'
      rw [show st'.force = .ok st' from hv] at hf; cases hf

/-- When the order of two results never matters, `foldl` and `foldr` with the same operation are the
same parser. -/
theorem C59_order_irrelevant (K : Val → Prop) (p : P) (x : Val) (op : Val → Val → Val)
    (hp : ResultsIn E K p) (hop : ClosedOn K op) (hx : K x)
    (hcomm : ∀ y a b, K y → K a → K b → op (op y a) b = op (op y b) a) :
    Equivalent E (.foldl p x op) (P.foldr p x op) := by
  refine foldl_foldr_equivalent hp hop hop hx fun vs hvs => ?_
  have key : ∀ (vs : List Val), (∀ v ∈ vs, K v) → ∀ y a, K y → K a →
      vs.foldl op (op y a) = op (vs.foldl op y) a := by
    intro vs
    induction vs with
    | nil => intros; rfl
    | cons v vs ih =>
      intro hvs y a hy ha
      have hv := hvs v (by simp)
      simp only [List.foldl]
      rw [hcomm y a v hy ha hv]
      exact ih (fun w hw => hvs w (by simp [hw])) _ _ (hop.2 _ _ hy hv) ha
  induction vs with
  | nil => rfl
  | cons v vs ih =>
    have hv := hvs v (by simp)
    have hvs' : ∀ w ∈ vs, K w := fun w hw => hvs w (by simp [hw])
    simp only [List.foldl, List.foldr]
    rw [key vs hvs' x v hx hv, ih hvs']

/-- When the operation is associative with the initial state as its unit, a left fold is the right
fold with the swapped operation. -/
theorem C59_swap (K : Val → Prop) (p : P) (x : Val) (op : Val → Val → Val)
    (hp : ResultsIn E K p) (hop : ClosedOn K op) (hx : K x)
    (hassoc : ∀ a b c, K a → K b → K c → op (op a b) c = op a (op b c))
    (hunit : ∀ a, K a → op x a = a ∧ op a x = a) :
    Equivalent E (.foldl p x op) (P.foldr p x (swapOp op)) := by
  refine foldl_foldr_equivalent hp hop ⟨hop.1, fun a b ha hb => hop.2 b a hb ha⟩ hx
    fun vs hvs => ?_
  have key : ∀ (vs : List Val), (∀ v ∈ vs, K v) → ∀ y, K y →
      vs.foldl op y = op y (vs.foldr (fun v z => swapOp op z v) x) ∧
        K (vs.foldr (fun v z => swapOp op z v) x) := by
    intro vs
    induction vs with
    | nil => intro _ y hy; exact ⟨(hunit y hy).2.symm, hx⟩
    | cons v vs ih =>
      intro hvs y hy
      have hv := hvs v (by simp)
      obtain ⟨h1, h2⟩ := ih (fun w hw => hvs w (by simp [hw])) (op y v) (hop.2 _ _ hy hv)
      simp only [List.foldl, List.foldr, swapOp] at h1 h2 ⊢
      exact ⟨by rw [h1, hassoc y v _ hy hv h2], hop.2 _ _ hv h2⟩
  obtain ⟨h1, h2⟩ := key vs hvs x hx
  rw [h1, (hunit _ h2).1]

/-- Subtracting digits from a number: the order does not matter. -/
example : Equivalent env98 (.foldl (.always .oneChar (.int 3)) (.int 10) subOp)
    (P.foldr (.always .oneChar (.int 3)) (.int 10) subOp) := by
  refine C59_order_irrelevant (fun v => ∃ n, v = .int n) _ _ _ ?_ ⟨?_, ?_⟩ ⟨10, rfl⟩ ?_
  · intro s pos v s' pos' h
    have h : run env98 (.always .oneChar (.int 3)) s pos = .ok (.acc v s' pos') := h
    rw [run_step] at h
    simp only [step, Comb.always, Out.bind_eq_ok] at h
    obtain ⟨r, _, h⟩ := h
    cases r with
    | rej m e => cases h
    | acc w s1 pos1 => cases h; exact ⟨3, rfl⟩
  · rintro _ ⟨n, rfl⟩; rfl
  · rintro _ _ ⟨a, rfl⟩ ⟨b, rfl⟩; exact ⟨a - b, rfl⟩
  · rintro _ _ _ ⟨a, rfl⟩ ⟨b, rfl⟩ ⟨c, rfl⟩
    show Val.int (a - b - c) = Val.int (a - c - b)
    congr 1; omega

/-- Joining sequences, an operation for which the order matters. -/
def joinOp : Val → Val → Val
  | .seq a, .seq b => .seq (a ++ b)
  | _, _ => .bad .noType

/-- Joining the pairs of a text from either side. -/
example : Equivalent env11 (.foldl (.sequence [.oneChar, .oneChar]) (.seq []) joinOp)
    (P.foldr (.sequence [.oneChar, .oneChar]) (.seq []) (swapOp joinOp)) := by
  refine C59_swap (fun v => ∃ l, v = .seq l) _ _ _ ?_ ⟨?_, ?_⟩ ⟨[], rfl⟩ ?_ ?_
  · intro s pos v s' pos' h
    obtain ⟨vs, _, h⟩ := (C22_sequence_accepts _ (by intro h; cases h) ..).1 h
    exact ⟨vs, h⟩
  · rintro _ ⟨n, rfl⟩; rfl
  · rintro _ _ ⟨a, rfl⟩ ⟨b, rfl⟩; exact ⟨a ++ b, rfl⟩
  · rintro _ _ _ ⟨a, rfl⟩ ⟨b, rfl⟩ ⟨c, rfl⟩
    show Val.seq (a ++ b ++ c) = Val.seq (a ++ (b ++ c))
    rw [List.append_assoc]
  · rintro _ ⟨a, rfl⟩
    exact ⟨rfl, by show Val.seq (a ++ []) = _; rw [List.append_nil]⟩

/-- Without such laws the direction matters: collecting digits into a number from the right reads
them backwards. -/
theorem C59_direction_matters :
    Accepts env11 (.foldl P.digitVal (.int 0) nextDigit) (txt "12") start (.int 12) []
      ⟨1, 3, ch '2'⟩ ∧
    Accepts env11 (P.foldr P.digitVal (.int 0) nextDigit) (txt "12") start (.int 21) []
      ⟨1, 3, ch '2'⟩ :=
  ⟨accepts_of_eval 20 (by decide +kernel), accepts_of_eval 20 (by decide +kernel)⟩

end Metaparse
