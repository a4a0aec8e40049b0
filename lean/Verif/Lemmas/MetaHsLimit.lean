import Verif.Model.MetaHsEval
import Verif.Lemmas.Cont
/-!
# `answer` satisfies the equation `answer = layer answer`
-/

namespace Metaparse

namespace HsEval

/-- Commutes with limits of chains. -/
def ContQ {β : Type} (T : (Query → Out Cls) → Out β) : Prop :=
  ∀ (F : Nat → Query → Out Cls) (G : Query → Out Cls), (∀ n q, Out.le (F n q) (F (n + 1) q)) →
    (∀ q, (∀ n, Out.le (F n q) (G q)) ∧ ∃ n, F n q = G q) →
    (∀ n, Out.le (T (F n)) (T (F (n + 1)))) ∧ (∀ n, Out.le (T (F n)) (T G)) ∧ (∃ n, T (F n) = T G)

theorem ContQ.const {β : Type} (x : Out β) : ContQ fun _ => x :=
  fun _ _ _ _ => ⟨fun _ => Out.le_refl _, fun _ => Out.le_refl _, 0, rfl⟩

theorem ContQ.query (q : Query) : ContQ fun f => f q :=
  fun _ _ hF hG => ⟨fun n => hF n q, (hG q).1, (hG q).2⟩

theorem ContQ.bind {α β : Type} {T : (Query → Out Cls) → Out α} {U : α → (Query → Out Cls) → Out β}
    (hT : ContQ T) (hU : ∀ a, ContQ (U a)) : ContQ fun f => (T f).bind fun a => U a f := by
  intro F G hF hG
  obtain ⟨t1, t2, n, hn⟩ := hT F G hF hG
  refine ⟨fun n => Out.le_bind (t1 n) fun a => (hU a F G hF hG).1 n,
    fun n => Out.le_bind (t2 n) fun a => (hU a F G hF hG).2.1 n, ?_⟩
  cases hg : T G with
  | ok a =>
    obtain ⟨u1, u2, m, hm⟩ := hU a F G hF hG
    refine ⟨max n m, ?_⟩
    have h1 : T (F (max n m)) = .ok a := by
      rcases le_of_chain t1 (Nat.le_max_left n m) with h | h
      · rw [hn, hg] at h; cases h
      · rw [← h, hn, hg]
    have h2 : U a (F (max n m)) = U a G := by
      rcases le_of_chain u1 (Nat.le_max_right n m) with h | h
      · rcases u2 (max n m) with h' | h'
        · rw [← hm, h]; exact h'
        · exact h'
      · rw [← h, hm]
    show (T _).bind _ = (T G).bind _
    rw [h1, hg]; exact h2
  | ill f => exact ⟨n, by simp only [hn, hg, Out.bind_ill]⟩
  | deep => exact ⟨n, by simp only [hn, hg, Out.bind_deep]⟩

theorem cont_constant (a : Cls) : ContQ fun f => constant f a :=
  .bind (.query _) fun _ => .query _

theorem cont_numbers (as : List Cls) : ContQ fun f => numbers f as := by
  induction as with
  | nil => exact .const _
  | cons a as ih => exact .bind (cont_constant a) fun _ => .bind (.const _) fun _ => .bind ih fun _ => .const _

theorem cont_two (a b : Cls) (g : Cls → Cls → Out Cls) :
    ContQ fun f => (constant f a).bind fun x => (constant f b).bind fun y => g x y :=
  .bind (cont_constant a) fun _ => .bind (cont_constant b) fun _ => .const _

theorem cont_applyPrim (p : Prim) (as : List Cls) : ContQ fun f => applyPrim f p as := by
  rcases as with _ | ⟨a, _ | ⟨b, _ | ⟨c, _ | ⟨d, as⟩⟩⟩⟩ <;> cases p <;>
    first
    | exact .const _
    | exact cont_two a b _
    | exact .bind (cont_constant a) fun _ => .const _
    | exact .bind (cont_numbers _) fun _ => .const _

theorem cont_layer (q : Query) : ContQ fun f => layer f q := by
  cases q with
  | bind ast top env =>
    cases ast with
    | value v => exact .const _
    | ref name =>
      simp only [layer]
      cases env.lookup name with
      | none => exact .const _
      | some a => exact .query _
    | application f a => exact .bind (.query _) fun _ => .bind (.query _) fun _ => .const _
    | lambda f x => exact .const _
    | topBound e => exact .query _
  | members c =>
    cases c with
    | lapp f a => exact .bind (.query _) fun _ => .bind (.query _) fun _ => .query _
    | _ => exact .const _
  | typeOf c =>
    refine .bind (.query _) fun m => ?_
    cases m <;> exact .const _
  | apply f a =>
    refine .bind (.query _) fun m => ?_
    cases m with
    | closure b x top env => exact .bind (.query _) fun _ => .query _
    | curry p args =>
      by_cases h : args.length + 1 = p.arity
      · simp only [if_pos h]; exact cont_applyPrim _ _
      · simp only [if_neg h]; exact .const _
    | _ => exact .const _

theorem layer_mono {f g : Query → Out Cls} (h : ∀ q, Out.le (f q) (g q)) (q : Query) :
    Out.le (layer f q) (layer g q) := by
  have := (cont_layer q) (fun n => if n = 0 then f else g) g
    (by
      intro n q
      by_cases hn : n = 0
      · simp [hn]; exact h q
      · simp [hn]; exact Out.le_refl _)
    (by
      intro q
      refine ⟨fun n => ?_, 1, by simp⟩
      by_cases hn : n = 0
      · simp [hn]; exact h q
      · simp [hn]; exact Out.le_refl _)
  simpa using this.2.1 0

theorem answerIn_chain (n : Nat) : ∀ q, Out.le (answerIn n q) (answerIn (n + 1) q) := by
  induction n with
  | zero => intro q; exact Or.inl rfl
  | succ n ih => intro q; exact layer_mono ih q

/-- A chain has its limit. -/
theorem limitOf_isLim {α : Type} {f : Nat → Out α} (h : ∀ n, Out.le (f n) (f (n + 1))) :
    (∀ n, Out.le (f n) (limitOf f)) ∧ ∃ n, f n = limitOf f := by
  unfold limitOf
  split
  · rename_i hd
    have hs := Classical.choose_spec hd
    refine ⟨fun n => ?_, _, rfl⟩
    rcases Nat.le_total n (Classical.choose hd) with hle | hle
    · exact le_of_chain h hle
    · rcases le_of_chain h hle with h' | h'
      · exact absurd h' hs
      · exact Or.inr h'.symm
  · rename_i hd
    have h' : ∀ n, f n = .deep := fun n => Classical.byContradiction fun hn => hd ⟨n, hn⟩
    exact ⟨fun n => Or.inl (h' n), 0, h' 0⟩

theorem limitOf_eq {α : Type} {f : Nat → Out α} (h : ∀ n, Out.le (f n) (f (n + 1))) {n : Nat} {x : Out α}
    (hn : f n = x) (hx : x ≠ .deep) : limitOf f = x := by
  rcases (limitOf_isLim h).1 n with h' | h'
  · exact absurd (hn.symm.trans h') hx
  · rw [← h', hn]

theorem answer_isLim (q : Query) : (∀ n, Out.le (answerIn n q) (answer q)) ∧ ∃ n, answerIn n q = answer q :=
  limitOf_isLim fun n => answerIn_chain n q

theorem answer_eq_of_in {n : Nat} {q : Query} {x : Out Cls} (h : answerIn n q = x) (hx : x ≠ .deep) :
    answer q = x :=
  limitOf_eq (f := fun n => answerIn n q) (fun n => answerIn_chain n q) h hx

theorem answer_of_in {n : Nat} {q : Query} {c : Cls} (h : answerIn n q = .ok c) : answer q = .ok c :=
  answer_eq_of_in h (by simp)

theorem answerIn_le {m n : Nat} (h : m ≤ n) (q : Query) : Out.le (answerIn m q) (answerIn n q) :=
  le_of_chain (t := fun n => answerIn n q) (fun n => answerIn_chain n q) h

theorem answerIn_mono {m n : Nat} {q : Query} {c : Cls} (h : m ≤ n) (hm : answerIn m q = .ok c) :
    answerIn n q = .ok c := by
  rcases answerIn_le h q with h' | h'
  · rw [hm] at h'; cases h'
  · rw [← h', hm]

theorem exists_answerIn (q : Query) : ∃ n, answerIn n q = answer q := (answer_isLim q).2

/-- One layer of instantiation, then the answers to the questions asked in it. -/
theorem answer_layer (q : Query) : answer q = layer answer q := by
  obtain ⟨_, h2, n, hn⟩ := cont_layer q answerIn answer (fun n q => answerIn_chain n q) answer_isLim
  have hn' : answerIn (n + 1) q = layer answer q := hn
  by_cases hd : layer answer q = .deep
  · rw [hd]
    obtain ⟨m, hm⟩ := exists_answerIn q
    rw [← hm]
    rcases answerIn_chain m q with h | h
    · exact h
    · rw [h]
      rcases h2 m with h' | h'
      · exact h'
      · exact h'.trans hd
  · exact answer_eq_of_in hn' hd

end HsEval

end Metaparse
