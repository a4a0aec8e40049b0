import Verif.Lemmas.Templates.Data
/-!
# Templates with a number of parameters: what the macros of C++98 repeat
-/

set_option linter.unusedVariables false
set_option linter.unusedSimpArgs false
set_option linter.unusedSectionVars false

namespace Metaparse.Tmpl

/-! ### Arguments -/

theorem fits_params {x : Id} {n : Nat} {ps : List Pat} {vs : List V} {b : List (Id × Bind)} (h : n ≤ vs.length)
    (hx : find x b = none) :
    Pat.fits (.params x n :: ps) vs b = Pat.fits ps (vs.drop n) ((x, .many (vs.take n)) :: b) := by
  rw [Pat.fits]
  simp [h, hx]

theorem fits_params_none {x : Id} {n : Nat} {ps : List Pat} {vs : List V} {b : List (Id × Bind)} (h : ¬ n ≤ vs.length) :
    Pat.fits (.params x n :: ps) vs b = none := by
  rw [Pat.fits]
  simp [h]

theorem fits_all {x : Id} {n : Nat} {vs : List V} {b : List (Id × Bind)} (h : vs.length = n) (hx : find x b = none) :
    Pat.fits [.params x n] vs b = some ((x, .many vs) :: b) := by
  rw [fits_params (by omega) hx, List.drop_of_length_le (by omega), List.take_of_length_le (by omega), Pat.fits]

/-- The pattern stands for one argument. -/
def Mark (p : Pat) (w : V) : Prop := (∀ x, p ≠ .pack x) ∧ (∀ x n, p ≠ .params x n) ∧
  ∀ v b, Pat.fit p v b = if v = w then some b else none

theorem fits_cons {p : Pat} {ps : List Pat} {v : V} {vs : List V} {b : List (Id × Bind)} (h1 : ∀ x, p ≠ .pack x)
    (h2 : ∀ x n, p ≠ .params x n) : Pat.fits (p :: ps) (v :: vs) b = (Pat.fit p v b).bind fun b' => Pat.fits ps vs b' := by
  cases p with
  | pack x => exact absurd rfl (h1 x)
  | params x n => exact absurd rfl (h2 x n)
  | _ => rw [Pat.fits] <;> simp

theorem fits_num {n : Int} {ps : List Pat} {vs : List V} {b : List (Id × Bind)} :
    Pat.fits (.num n :: ps) (.num n :: vs) b = Pat.fits ps vs b := by
  rw [fits_cons (by simp) (by simp), Pat.fit, if_pos rfl]; rfl

theorem fits_num_ne {n m : Int} {ps : List Pat} {vs : List V} {b : List (Id × Bind)} (h : n ≠ m) :
    Pat.fits (.num n :: ps) (.num m :: vs) b = none := by
  rw [fits_cons (by simp) (by simp), Pat.fit, if_neg h]; rfl

theorem fits_var {x : Id} {v : V} {ps : List Pat} {vs : List V} {b : List (Id × Bind)} (hx : find x b = none) :
    Pat.fits (.var x :: ps) (v :: vs) b = Pat.fits ps vs ((x, .one v) :: b) := by
  rw [fits_cons (by simp) (by simp), Pat.fit, hx]; rfl

theorem fits_cls {n : Id} {qs ps : List Pat} {ws vs : List V} {b : List (Id × Bind)} :
    Pat.fits (.cls n qs :: ps) (K n ws :: vs) b = (Pat.fits qs ws b).bind fun b => Pat.fits ps vs b := by
  rw [fits_cons (by simp) (by simp), Pat.fit, if_pos rfl]

theorem fits_cons_nil {p : Pat} {ps : List Pat} {b : List (Id × Bind)} (h1 : ∀ x, p ≠ .pack x)
    (h2 : ∀ x n, p ≠ .params x n) : Pat.fits (p :: ps) [] b = none := by
  cases p with
  | pack x => exact absurd rfl (h1 x)
  | params x n => exact absurd rfl (h2 x n)
  | _ => simp [Pat.fits]

theorem fits_marks {p : Pat} {w : V} (hp : Mark p w) {b : List (Id × Bind)} : ∀ k (vs : List V),
    Pat.fits (List.replicate k p) vs b = if vs = List.replicate k w then some b else none
  | 0, [] => by simp [Pat.fits]
  | 0, v :: vs => by simp [Pat.fits]
  | k + 1, [] => by
      rw [List.replicate_succ, fits_cons_nil hp.1 hp.2.1]
      simp [List.replicate_succ]
  | k + 1, v :: vs => by
      rw [List.replicate_succ, fits_cons hp.1 hp.2.1, hp.2.2]
      by_cases hv : v = w
      · subst hv
        simp only [if_true, Option.bind_some, fits_marks hp k vs, List.replicate_succ, List.cons.injEq, true_and]
      · simp [hv, List.replicate_succ]

theorem mark_num {n : Int} : Mark (.num n) (.num n) := by
  refine ⟨fun _ h => (by cases h), fun _ _ h => (by cases h), fun v b => ?_⟩
  cases v with
  | num m =>
      simp only [Pat.fit, V.num.injEq]
      by_cases h : n = m
      · simp [h]
      · have h' : ¬ m = n := fun e => h e.symm
        simp [h, h']
  | _ => simp [Pat.fit]

theorem mark_cls {n : Id} : Mark (.cls n []) (K n []) := by
  refine ⟨fun _ h => (by cases h), fun _ _ h => (by cases h), fun v b => ?_⟩
  cases v with
  | cls o m vs =>
      cases o with
      | root =>
          simp only [Pat.fit, V.cls.injEq, true_and]
          by_cases h : n = m
          · subst h
            cases vs <;> simp [Pat.fits]
          · have h' : ¬ m = n := fun e => h e.symm
            simp [h, h']
      | _ => simp [Pat.fit]
  | _ => simp [Pat.fit]

/-- The arguments that are given, and the ones that are left out. -/
theorem fits_upto {x : Id} {p : Pat} {w : V} (hp : Mark p w) {n k : Nat} {vs : List V} {b : List (Id × Bind)}
    (hx : find x b = none) (hl : vs.length = n + k) :
    Pat.fits (.params x n :: List.replicate k p) vs b =
      if vs.drop n = List.replicate k w then some ((x, .many (vs.take n)) :: b) else none := by
  rw [fits_params (by omega) hx, fits_marks hp]

theorem drop_marks {w : V} {ys : List V} {k n : Nat} (hy : ys.getLast? ≠ some w) (hn : n < ys.length) {j : Nat} :
    (ys ++ List.replicate k w).drop n ≠ List.replicate j w := by
  intro h
  apply hy
  have hne : ys ≠ [] := by intro e; subst e; simp at hn
  rw [List.getLast?_eq_some_getLast hne]
  have : ys.getLast hne ∈ (ys ++ List.replicate k w).drop n := by
    rw [List.drop_append_of_le_length (by omega)]
    refine List.mem_append_left _ ?_
    have h2 : ys.drop n ≠ [] := by
      intro e
      have := congrArg List.length e
      simp at this
      omega
    have := List.getLast_mem h2
    rwa [List.getLast_drop h2] at this
  rw [h] at this
  rw [(List.mem_replicate.1 this).2]

/-! ### Definitions that are repeated -/

theorem choose_range {c : Ctx} {self : V} {args : List V} {f : Nat → Spec} {b : List (Id × Bind)} {n : Nat} :
    ∀ {a k : Nat}, a ≤ n → n < a + k → (∀ m, a ≤ m → m < n → Pat.fits (f m).pats args [] = none) →
    Pat.fits (f n).pats args [] = some b →
    choose c self args ((List.range' a k).map f) = some (⟨b ++ c.vars, self :: c.selves⟩, f n)
  | a, 0, h1, h2, _, _ => by omega
  | a, k + 1, h1, h2, h3, h4 => by
      rw [List.range'_succ, List.map_cons]
      by_cases e : a = n
      · subst e
        exact choose_here h4
      · exact choose_next (h3 a (Nat.le_refl _) (by omega))
          (choose_range (by omega) (by omega) (fun m hm hm' => h3 m (by omega) hm') h4)

theorem choose_upto {c : Ctx} {self : V} {args : List V} {f : Nat → Spec} {b : List (Id × Bind)} {n k : Nat} (h2 : n < k)
    (h3 : ∀ m, m < n → Pat.fits (f m).pats args [] = none) (h4 : Pat.fits (f n).pats args [] = some b) :
    choose c self args ((List.range k).map f) = some (⟨b ++ c.vars, self :: c.selves⟩, f n) := by
  rw [List.range_eq_range']
  exact choose_range (Nat.zero_le _) (by omega) (fun m _ hm => h3 m hm) h4

section
variable {x : Id} {p : Pat} {w : V} {ys : List V} {k n : Nat} {b : List (Id × Bind)}

theorem upto_here (hp : Mark p w) (hx : find x b = none) :
    Pat.fits (.params x ys.length :: List.replicate (k - ys.length) p) (ys ++ List.replicate (k - ys.length) w) b =
      some ((x, .many ys) :: b) := by
  rw [fits_upto hp hx (by simp)]
  simp

theorem upto_before (hp : Mark p w) (hx : find x b = none) (hy : ys.getLast? ≠ some w) (hn : n < ys.length)
    (hk : ys.length ≤ k) :
    Pat.fits (.params x n :: List.replicate (k - n) p) (ys ++ List.replicate (k - ys.length) w) b = none := by
  rw [fits_upto hp hx (by simp; omega), if_neg (drop_marks hy hn)]

end

/-! ### Terms -/

section
variable [Lang] {h : V → Out Members} {c : Ctx}

theorem evs_cons {t : Tm} {ts : List Tm} (h1 : ∀ x, t ≠ .spread x) (h2 : ∀ x u, t ≠ .each x u) :
    Tm.evs h c (t :: ts) = (Tm.ev h c t).bind fun v => (Tm.evs h c ts).bind fun vs => .ok (v :: vs) := by
  cases t with
  | spread x => exact absurd rfl (h1 x)
  | each x u => exact absurd rfl (h2 x u)
  | _ => rw [Tm.evs] <;> simp [obind_assoc, Out.bind_ok]

theorem evs_append {us : List Tm} : ∀ ts : List Tm,
    Tm.evs h c (ts ++ us) = (Tm.evs h c ts).bind fun vs => (Tm.evs h c us).bind fun ws => .ok (vs ++ ws)
  | [] => by
      rw [List.nil_append, Tm.evs, Out.bind_ok]
      exact (obind_ok _).symm
  | t :: ts => by
      have ih := evs_append (us := us) ts
      cases t with
      | spread x => simp only [List.cons_append, Tm.evs, ih, obind_assoc, Out.bind_ok, List.append_assoc]
      | each x u => simp only [List.cons_append, Tm.evs, ih, obind_assoc, Out.bind_ok, List.append_assoc]
      | _ =>
          rw [List.cons_append, evs_cons (by simp) (by simp), evs_cons (by simp) (by simp), ih]
          simp only [obind_assoc, Out.bind_ok, List.cons_append]

theorem evs_map {α : Type} {f : α → Tm} {g : α → V} : ∀ {l : List α}, (∀ a ∈ l, (∀ x, f a ≠ .spread x) ∧
    (∀ x u, f a ≠ .each x u) ∧ Tm.ev h c (f a) = .ok (g a)) → Tm.evs h c (l.map f) = .ok (l.map g)
  | [], _ => by simp [Tm.evs]
  | a :: l, H => by
      obtain ⟨h1, h2, h3⟩ := H a (List.mem_cons_self ..)
      rw [List.map_cons, evs_cons h1 h2, h3, Out.bind_ok, evs_map fun b hb => H b (List.mem_cons_of_mem _ hb), Out.bind_ok,
        List.map_cons]

theorem ev_nth {x : Id} {vs : List V} (hx : c.many x = .ok vs) {i : Nat} (hi : i < vs.length) :
    Tm.ev h c (.nth x i) = .ok (vs[i]?.getD .root) := by
  rw [Tm.ev, hx, Out.bind_ok]
  simp [hi]

theorem range_get {α : Type} {d : α} {vs : List α} : ∀ {a k : Nat}, a + k ≤ vs.length →
    ((List.range' a k).map fun i => vs[i]?.getD d) = (vs.drop a).take k
  | a, 0, _ => by simp
  | a, k + 1, h => by
      rw [List.range'_succ, List.map_cons, range_get (by omega), List.drop_eq_getElem_cons (by omega : a < vs.length),
        List.take_succ_cons]
      simp [show a < vs.length by omega]

theorem evs_nths {x : Id} {vs : List V} (hx : c.many x = .ok vs) {a k : Nat} (hk : a + k ≤ vs.length) :
    Tm.evs h c ((List.range' a k).map fun i => .nth x i) = .ok ((vs.drop a).take k) := by
  rw [← range_get (d := V.root) hk]
  refine evs_map fun i hi => ⟨by simp, by simp, ev_nth hx ?_⟩
  have := List.mem_range'_1.1 hi
  omega

theorem evs_all {x : Id} {vs : List V} (hx : c.many x = .ok vs) :
    Tm.evs h c ((List.range vs.length).map fun i => .nth x i) = .ok vs := by
  rw [List.range_eq_range', evs_nths hx (by omega)]
  simp

/-- The same with a class around each. -/
theorem evs_wrap {x n : Id} {vs : List V} (hx : c.many x = .ok vs) :
    Tm.evs h c ((List.range vs.length).map fun i => .cls n [.nth x i]) = .ok (vs.map fun v => K n [v]) := by
  rw [evs_map (g := fun i => K n [vs[i]?.getD .root])]
  · rw [List.range_eq_range']
    have := range_get (d := V.root) (a := 0) (k := vs.length) (vs := vs) (by omega)
    rw [List.drop_zero, List.take_length] at this
    conv => rhs; rw [← this, List.map_map]
    rfl
  · intro i hi
    refine ⟨by simp, by simp, ?_⟩
    rw [Tm.ev, evs_cons (by simp) (by simp), ev_nth hx (List.mem_range.1 hi)]
    simp [Tm.evs, Out.bind_ok]

end

/-! ### Arguments that are left out -/

section
variable [L : Lang] {l : Limits} (hL : L.headers = .cpp98 l)
include hL

theorem fill_98 {n : Id} {k : Nat} {d : V} {vs : List V} (hd : defaults l n = some (k, d)) :
    fill n vs = vs ++ List.replicate (k - vs.length) d := by
  simp only [fill, hL, Headers.pick, hd]

theorem fill_length {n : Id} {k : Nat} {d : V} {vs : List V} (hd : defaults l n = some (k, d)) (hk : vs.length ≤ k) :
    (fill n vs).length = k := by
  rw [fill_98 hL hd]
  simp
  omega

theorem fill_full {n : Id} {k : Nat} {d : V} {vs : List V} (hd : defaults l n = some (k, d)) (hk : vs.length = k) :
    fill n vs = vs := by
  rw [fill_98 hL hd]
  simp [hk]

end

end Metaparse.Tmpl
