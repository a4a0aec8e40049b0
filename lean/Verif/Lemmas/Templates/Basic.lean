import Verif.Spec.Templates
/-!
# Instantiation: monotonicity, the limit, and modes of comparison
-/

set_option linter.unusedVariables false

namespace Metaparse.Tmpl

/-- Relations between families of outcomes and outcomes that sequencing respects. -/
structure Rel (ι : Type) where
  R : {α : Type} → (ι → Out α) → Out α → Prop
  const : ∀ {α : Type} (x : Out α), R (fun _ => x) x
  bind : ∀ {α β : Type} {x : ι → Out α} {y : Out α} {k : ι → α → Out β} {k' : α → Out β}, R x y →
    (∀ a, R (fun i => k i a) (k' a)) → R (fun i => (x i).bind (k i)) (y.bind k')

variable {ι : Type} (Q : Rel ι) {hs : ι → V → Out Members} {h : V → Out Members}

theorem mapOut_rel {α β : Type} {f : ι → α → Out β} {g : α → Out β} (H : ∀ a, Q.R (fun i => f i a) (g a)) :
    ∀ as, Q.R (fun i => mapOut (f i) as) (mapOut g as)
  | [] => Q.const _
  | a :: as => Q.bind (H a) fun _ => Q.bind (mapOut_rel H as) fun _ => Q.const _

section
variable [Lang]

mutual
theorem ev_rel (H : ∀ v, Q.R (fun i => hs i v) (h v)) : (t : Tm) → (c : Ctx) →
    Q.R (fun i => t.ev (hs i) c) (t.ev h c)
  | .var x, c => Q.const _
  | .spread x, c => Q.const _
  | .each x t, c => Q.const _
  | .cls n ts, c => Q.bind (evs_rel H ts c) fun _ => Q.const _
  | .padded n ts, c => Q.bind (evs_rel H ts c) fun _ => Q.const _
  | .inner k n ts, c => Q.bind (Q.const _) fun _ => Q.bind (evs_rel H ts c) fun _ => Q.const _
  | .self k, c => Q.const _
  | .mem t x, c => Q.bind (ev_rel H t c) fun _ => Q.bind (H _) fun _ => Q.const _
  | .memT t x ts, c => Q.bind (ev_rel H t c) fun _ => Q.bind (H _) fun _ => Q.bind (Q.const _) fun _ =>
      Q.bind (evs_rel H ts c) fun _ => Q.const _
  | .num n, c => Q.const _
  | .op o a b, c => Q.bind (ev_rel H a c) fun _ => Q.bind (ev_rel H b c) fun _ => Q.const _
  | .not a, c => Q.bind (ev_rel H a c) fun _ => Q.const _
  | .size x, c => Q.const _
  | .nth x i, c => Q.const _
theorem evs_rel (H : ∀ v, Q.R (fun i => hs i v) (h v)) : (ts : List Tm) → (c : Ctx) →
    Q.R (fun i => Tm.evs (hs i) c ts) (Tm.evs h c ts)
  | [], c => Q.const _
  | t :: ts, c => by
      have h1 := ev_rel H t c
      have h2 := evs_rel H ts c
      cases t with
      | spread x => exact Q.bind (Q.const _) fun _ => Q.bind h2 fun _ => Q.const _
      | each x t' =>
          exact Q.bind (Q.bind (Q.const _) fun vs => mapOut_rel Q (fun v => ev_rel H t' _) vs) fun _ =>
            Q.bind h2 fun _ => Q.const _
      | _ => exact Q.bind (Q.bind h1 fun _ => Q.const _) fun _ => Q.bind h2 fun _ => Q.const _
end

theorem evBases_rel (H : ∀ v, Q.R (fun i => hs i v) (h v)) (c : Ctx) : ∀ ts,
    Q.R (fun i => evBases (hs i) c ts) (evBases h c ts)
  | [] => Q.const _
  | t :: ts => Q.bind (ev_rel Q H t c) fun _ => Q.bind (H _) fun _ => Q.bind (evBases_rel H c ts) fun _ => Q.const _

theorem evDecls_rel (H : ∀ v, Q.R (fun i => hs i v) (h v)) (self : V) : ∀ ds c,
    Q.R (fun i => evDecls (hs i) self c ds) (evDecls h self c ds)
  | [], _ => Q.const _
  | .type x t :: ds, c => Q.bind (ev_rel Q H t c) fun _ => Q.bind (evDecls_rel H self ds _) fun _ => Q.const _
  | .assert t :: ds, c => Q.bind (ev_rel Q H t c) fun v => by
      by_cases hv : v = .num 0
      · simp only [hv, ite_true]
        exact Q.const _
      · simp only [hv, ite_false]
        exact evDecls_rel H self ds c
  | .tmpl x _ :: ds, c => Q.bind (evDecls_rel H self ds c) fun _ => Q.const _

theorem instantiate_rel (U : User) (H : ∀ v, Q.R (fun i => hs i v) (h v)) (v : V) :
    Q.R (fun i => instantiate U (hs i) v) (instantiate U h v) := by
  cases v with
  | cls o n args =>
      have main : Q.R (fun i => match resolve (.cls o n args) with
          | none => .ill .noSpecialisation
          | some (c, sp) => (evBases (hs i) c sp.bases).bind fun bs =>
              (evDecls (hs i) (.cls o n args) c sp.decls).bind fun ds => .ok (ds ++ bs))
          (match resolve (.cls o n args) with
          | none => .ill .noSpecialisation
          | some (c, sp) => (evBases h c sp.bases).bind fun bs =>
              (evDecls h (.cls o n args) c sp.decls).bind fun ds => .ok (ds ++ bs)) := by
        cases resolve (.cls o n args) with
        | none => exact Q.const _
        | some x => exact Q.bind (evBases_rel Q H _ _) fun _ => Q.bind (evDecls_rel Q H _ _ _) fun _ => Q.const _
      cases o with
      | fn k => exact Q.const _
      | _ => exact main
  | fn k => exact Q.const _
  | rule i => exact H _
  | _ => exact Q.const _

end

/-! ### The limit -/

/-- One outcome is the other, or had too few layers. -/
def Le {α : Type} (x y : Out α) : Prop := x = .deep ∨ x = y

/-- `Le` as a relation that sequencing respects. -/
def leRel : Rel Unit where
  R x y := Le (x ()) y
  const x := .inr rfl
  bind := by
    rintro α β x y k k' (h | h) H
    · exact .inl (by simp only [h]; rfl)
    · show Le ((x ()).bind (k ())) (y.bind k')
      rw [h]
      cases y with
      | ok a => exact H a
      | ill f => exact .inr rfl
      | deep => exact .inr rfl

/-- Being the same from some number of layers on, as a relation that sequencing respects. -/
def evRel : Rel Nat where
  R x y := ∃ n, ∀ m, n ≤ m → x m = y
  const x := ⟨0, fun _ _ => rfl⟩
  bind := by
    rintro α β x y k k' ⟨n, h⟩ H
    cases y with
    | ok a =>
        obtain ⟨n', h'⟩ := H a
        refine ⟨n + n', fun m hm => ?_⟩
        simp only [h m (by omega), Out.bind_ok]
        exact h' m (by omega)
    | ill f => exact ⟨n, fun m hm => by simp only [h m hm]; rfl⟩
    | deep => exact ⟨n, fun m hm => by simp only [h m hm]; rfl⟩

section
variable [Lang]

theorem instN_le (U : User) : ∀ n v, Le (instN U n v) (instN U (n + 1) v)
  | 0, _ => .inl rfl
  | n + 1, v => instantiate_rel leRel (hs := fun _ => instN U n) U (instN_le U n) v

theorem instN_le' (U : User) {n m : Nat} (h : n ≤ m) (v : V) : Le (instN U n v) (instN U m v) := by
  induction h with
  | refl => exact .inr rfl
  | step _ ih =>
      rcases ih with h1 | h1
      · exact .inl h1
      · rw [h1]; exact instN_le U _ v

theorem inst_eventually (U : User) (v : V) : evRel.R (fun n => instN U n v) (inst U v) := by
  show ∃ n, ∀ m, n ≤ m → instN U m v = inst U v
  by_cases hx : ∃ n, instN U n v ≠ .deep
  · unfold inst
    rw [dif_pos hx]
    refine ⟨Classical.choose hx, fun m hm => ?_⟩
    rcases instN_le' U hm v with h | h
    · exact absurd h (Classical.choose_spec hx)
    · exact h.symm
  · unfold inst
    rw [dif_neg hx]
    exact ⟨0, fun m _ => Classical.not_not.1 fun hn => hx ⟨m, hn⟩⟩

theorem inst_step (U : User) (v : V) : inst U v = instantiate U (inst U) v := by
  obtain ⟨n, h⟩ := inst_eventually U v
  obtain ⟨n', h'⟩ := instantiate_rel evRel U (inst_eventually U) v
  have h1 := h (n + n' + 1) (by omega)
  have h2 := h' (n + n') (by omega)
  exact h1.symm.trans h2

theorem instN_le_inst (U : User) (n : Nat) (v : V) : Le (instN U n v) (inst U v) := by
  obtain ⟨k, h⟩ := inst_eventually U v
  rw [← h (n + k) (by omega)]
  exact instN_le' U (by omega) v

theorem inst_of_instN {U : User} {v : V} {m : Members} (n : Nat) (h : instN U n v = .ok m) : inst U v = .ok m := by
  rcases instN_le_inst U n v with h' | h'
  · rw [h] at h'; cases h'
  · rw [← h', h]

end

/-! ### Modes -/

theorem Same.rfl' {α : Type} (x : Out α) : Same x x := by cases x <;> simp [Same]

theorem Same.symm {α : Type} {x y : Out α} (h : Same x y) : Same y x := by
  cases x <;> cases y <;> simp_all [Same]

theorem Same.trans {α : Type} {x y z : Out α} (h : Same x y) (h' : Same y z) : Same x z := by
  cases x <;> cases y <;> cases z <;> simp_all [Same]

theorem Same.ok {α : Type} {x : Out α} {a : α} (h : Same x (.ok a)) : x = .ok a := by
  cases x <;> simp_all [Same]

theorem Same.bind {α β : Type} {x y : Out α} {k k' : α → Out β} (h : Same x y) (H : ∀ a, Same (k a) (k' a)) :
    Same (x.bind k) (y.bind k') := by
  cases x <;> cases y <;> simp_all [Same, Out.bind]

/-- A way to compare what the templates do with something else: `h'` instantiates the classes used by the one `h`
instantiates. -/
structure Mode [Lang] (U : User) where
  R : {α : Type} → Out α → Out α → Prop
  same : ∀ {α : Type} {x y : Out α}, Same x y → R x y
  trans : ∀ {α : Type} {x y z : Out α}, R x y → R y z → R x z
  bind : ∀ {α β : Type} {x y : Out α} {k k' : α → Out β}, R x y → (∀ a, R (k a) (k' a)) → R (x.bind k) (y.bind k')
  h : V → Out Members
  h' : V → Out Members
  step : ∀ v, R (h v) (instantiate U h' v)
  step' : ∀ v, R (h' v) (instantiate U h' v)
  leaf : ∀ v, R (h v) (inst U v)
  leaf' : ∀ v, R (h' v) (inst U v)

/-- The left side is the right one or deeper. -/
def Below {α : Type} (x y : Out α) : Prop := x = .deep ∨ Same x y

theorem Below.trans {α : Type} {x y z : Out α} (h : Below x y) (h' : Below y z) : Below x z := by
  rcases h with h | h
  · exact .inl h
  · rcases h' with h' | h'
    · subst h'
      cases x <;> simp_all [Below, Same]
    · exact .inr (h.trans h')

theorem Below.bind {α β : Type} {x y : Out α} {k k' : α → Out β} (h : Below x y) (H : ∀ a, Below (k a) (k' a)) :
    Below (x.bind k) (y.bind k') := by
  rcases h with rfl | h
  · exact .inl rfl
  · cases x <;> cases y <;> simp_all [Same, Out.bind, Below]

theorem Le.below {α : Type} {x y : Out α} (h : Le x y) : Below x y := by
  rcases h with h | h
  · exact .inl h
  · exact .inr (h ▸ Same.rfl' _)

variable [Lang]

/-- What the templates do with `n + 1` layers is below. -/
def modeBelow (U : User) (n : Nat) : Mode U where
  R := Below
  same := .inr
  trans := Below.trans
  bind := Below.bind
  h := instN U (n + 1)
  h' := instN U n
  step v := .inr (Same.rfl' _)
  step' v := (instN_le U n v).below
  leaf v := (instN_le_inst U _ v).below
  leaf' v := (instN_le_inst U _ v).below

/-- What the templates do without limit is above. -/
noncomputable def modeAbove (U : User) : Mode U where
  R x y := Below y x
  same h := .inr h.symm
  trans h h' := Below.trans h' h
  bind h H := Below.bind h H
  h := inst U
  h' := inst U
  step v := .inr (by rw [← inst_step]; exact Same.rfl' _)
  step' v := .inr (by rw [← inst_step]; exact Same.rfl' _)
  leaf v := .inr (Same.rfl' _)
  leaf' v := .inr (Same.rfl' _)

namespace Mode

variable {U : User} (M : Mode U) {α β : Type}

theorem refl (x : Out α) : M.R x x := M.same (Same.rfl' x)

theorem bind_ok {x : Out α} {a : α} {k : α → Out β} {y : Out β} (h : M.R x (.ok a)) (H : M.R (k a) y) :
    M.R (x.bind k) y :=
  M.trans (M.bind h fun b => M.refl (k b)) H

/-- Something that is not well-formed or too deep. -/
def Bad (f : Option Fault) {α : Type} : Out α :=
  match f with
  | some f => .ill f
  | none => .deep

theorem bind_bad {x : Out α} {f : Option Fault} {k : α → Out β} (h : M.R x (Bad f)) : M.R (x.bind k) (Bad f) := by
  have := M.bind (k := k) (k' := k) h fun b => M.refl (k b)
  cases f <;> exact this

end Mode

end Metaparse.Tmpl
