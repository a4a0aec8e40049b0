/-
Patterns of specialisations: nothing fits both of two, or what fits one fits the other.
-/
import Verif.Spec.TemplatesChoice

namespace Metaparse.Tmpl

/-! ### Patterns that nothing fits both -/

/-- An argument that stands for one. -/
def Pat.single : Pat → Bool
  | .pack _ => false
  | .params _ _ => false
  | _ => true

mutual
/-- No argument fits both. -/
def Pat.apart : Pat → Pat → Bool
  | .num a, .num b => a != b
  | .num _, .cls _ _ => true
  | .cls _ _, .num _ => true
  | .cls n ps, .cls m qs => n != m || Pat.aparts ps qs
  | _, _ => false
/-- No list of arguments fits both. -/
def Pat.aparts : List Pat → List Pat → Bool
  | [], q :: _ => q.single
  | p :: _, [] => p.single
  | p :: ps, q :: qs => p.single && q.single && (Pat.apart p q || Pat.aparts ps qs)
  | [], [] => false
end

theorem fits_cons_inv {p : Pat} (hp : p.single = true) {ps : List Pat} {vs : List V} {b b' : List (Id × Bind)}
    (h : Pat.fits (p :: ps) vs b = some b') :
    ∃ v vs' b1, vs = v :: vs' ∧ Pat.fit p v b = some b1 ∧ Pat.fits ps vs' b1 = some b' := by
  cases p with
  | pack x => cases hp
  | params x n => cases hp
  | var x =>
    cases vs with
    | nil => simp [Pat.fits] at h
    | cons v vs' =>
      rw [Pat.fits] at h
      · obtain ⟨b1, h1, h2⟩ := Option.bind_eq_some_iff.mp h
        exact ⟨v, vs', b1, rfl, h1, h2⟩
      all_goals (intros; simp_all)
  | num x =>
    cases vs with
    | nil => simp [Pat.fits] at h
    | cons v vs' =>
      rw [Pat.fits] at h
      · obtain ⟨b1, h1, h2⟩ := Option.bind_eq_some_iff.mp h
        exact ⟨v, vs', b1, rfl, h1, h2⟩
      all_goals (intros; simp_all)
  | cls n qs =>
    cases vs with
    | nil => simp [Pat.fits] at h
    | cons v vs' =>
      rw [Pat.fits] at h
      · obtain ⟨b1, h1, h2⟩ := Option.bind_eq_some_iff.mp h
        exact ⟨v, vs', b1, rfl, h1, h2⟩
      all_goals (intros; simp_all)

theorem fits_nil {vs : List V} {b b' : List (Id × Bind)} (h : Pat.fits [] vs b = some b') : vs = [] ∧ b' = b := by
  cases vs with
  | nil => simp [Pat.fits] at h; exact ⟨rfl, h.symm⟩
  | cons v vs => simp [Pat.fits] at h

/-- Put together. -/
theorem fits_cons_of {p : Pat} (hp : p.single = true) {ps : List Pat} {v : V} {vs : List V} {b b1 b' : List (Id × Bind)}
    (h1 : Pat.fit p v b = some b1) (h2 : Pat.fits ps vs b1 = some b') : Pat.fits (p :: ps) (v :: vs) b = some b' := by
  cases p with
  | pack x => cases hp
  | params x n => cases hp
  | _ =>
    rw [Pat.fits]
    · rw [h1]; exact h2
    all_goals (intros; simp_all)

mutual
theorem apart_sound : (p q : Pat) → Pat.apart p q = true → ∀ (v : V) (b c b' c' : List (Id × Bind)),
    Pat.fit p v b = some b' → Pat.fit q v c = some c' → False
  | .num a, .num b, h => fun v _ _ _ _ h1 h2 => by
      cases v <;> simp [Pat.fit] at h1 h2
      simp [Pat.apart] at h
      exact h (h1.1.trans h2.1.symm)
  | .num _, .cls _ _, _ => fun v _ _ _ _ h1 h2 => by
      cases v <;> simp [Pat.fit] at h1 h2
  | .cls _ _, .num _, _ => fun v _ _ _ _ h1 h2 => by
      cases v <;> simp [Pat.fit] at h1 h2
  | .cls n ps, .cls m qs, h => fun v _ _ _ _ h1 h2 => by
      rw [Pat.apart, Bool.or_eq_true] at h
      cases v with
      | cls o k vs =>
        cases o with
        | root =>
          simp [Pat.fit] at h1 h2
          rcases h with h | h
          · simp at h
            exact h (h1.1.trans h2.1.symm)
          · exact aparts_sound ps qs h _ _ _ _ _ h1.2 h2.2
        | _ => simp [Pat.fit] at h1
      | _ => simp [Pat.fit] at h1
  | .var _, q, h => by simp [Pat.apart] at h
  | .pack _, q, h => by simp [Pat.apart] at h
  | .params _ _, q, h => by simp [Pat.apart] at h
  | .num _, .var _, h => by simp [Pat.apart] at h
  | .num _, .pack _, h => by simp [Pat.apart] at h
  | .num _, .params _ _, h => by simp [Pat.apart] at h
  | .cls _ _, .var _, h => by simp [Pat.apart] at h
  | .cls _ _, .pack _, h => by simp [Pat.apart] at h
  | .cls _ _, .params _ _, h => by simp [Pat.apart] at h
theorem aparts_sound : (ps qs : List Pat) → Pat.aparts ps qs = true → ∀ (vs : List V) (b c b' c' : List (Id × Bind)),
    Pat.fits ps vs b = some b' → Pat.fits qs vs c = some c' → False
  | [], q :: qs, h => fun vs _ _ _ _ h1 h2 => by
      rw [Pat.aparts] at h
      obtain ⟨v, vs', _, e, _, _⟩ := fits_cons_inv h h2
      rw [e] at h1
      simp [Pat.fits] at h1
  | p :: ps, [], h => fun vs _ _ _ _ h1 h2 => by
      rw [Pat.aparts] at h
      obtain ⟨v, vs', _, e, _, _⟩ := fits_cons_inv h h1
      rw [e] at h2
      simp [Pat.fits] at h2
  | p :: ps, q :: qs, h => fun vs _ _ _ _ h1 h2 => by
      rw [Pat.aparts, Bool.and_eq_true, Bool.and_eq_true, Bool.or_eq_true] at h
      obtain ⟨⟨hp, hq⟩, h⟩ := h
      obtain ⟨v, vs', b1, e, f1, f2⟩ := fits_cons_inv hp h1
      obtain ⟨w, ws', c1, e', g1, g2⟩ := fits_cons_inv hq h2
      rw [e] at e'
      cases e'
      rcases h with h | h
      · exact apart_sound p q h _ _ _ _ _ f1 g1
      · exact aparts_sound ps qs h _ _ _ _ _ f2 g2
  | [], [], h => by simp [Pat.aparts] at h
end

/-! ### Patterns that fit more -/

mutual
/-- What fits the second one fits the first one.  The parameters are counted: each may occur once. -/
def Pat.cover : Pat → Pat → List Id → Option (List Id)
  | .var x, _, s => if s.contains x then none else some (x :: s)
  | .num a, .num b, s => if a = b then some s else none
  | .cls n qs, .cls m ps, s => if n = m then Pat.covers qs ps s else none
  | _, _, _ => none
/-- The same of lists. -/
def Pat.covers : List Pat → List Pat → List Id → Option (List Id)
  | [], [], s => some s
  | [.pack x], _, s => some (x :: s)
  | q :: qs, p :: ps, s => if q.single && p.single then (Pat.cover q p s).bind fun s' => Pat.covers qs ps s' else none
  | _, _, _ => none
end

/-- Only these parameters have values. -/
def Within (b : List (Id × Bind)) (s : List Id) : Prop := ∀ x, find x b ≠ none → x ∈ s

theorem within_cons {b : List (Id × Bind)} {s : List Id} (h : Within b s) (x : Id) (v : Bind) :
    Within ((x, v) :: b) (x :: s) := by
  intro y hy
  rw [find] at hy
  by_cases e : y = x
  · rw [e]; exact List.mem_cons_self
  · rw [if_neg e] at hy
    exact List.mem_cons_of_mem _ (h y hy)

mutual
theorem cover_sound : (q p : Pat) → ∀ (s s' : List Id), Pat.cover q p s = some s' → ∀ (v : V) (b b' c : List (Id × Bind)),
    Pat.fit p v b = some b' → Within c s → ∃ c', Pat.fit q v c = some c' ∧ Within c' s'
  | .var x, p => fun s s' h v _ _ c h1 hw => by
      rw [Pat.cover] at h
      split at h
      · cases h
      · rename_i hx
        cases h
        have hn : find x c = none := by
          cases e : find x c with
          | none => rfl
          | some z => exact absurd (List.contains_iff_mem.mpr (hw x (by rw [e]; exact Option.some_ne_none z))) hx
        refine ⟨(x, .one v) :: c, ?_, within_cons hw x _⟩
        simp [Pat.fit, hn]
  | .num a, .num b => fun s s' h v _ _ c h1 hw => by
      rw [Pat.cover] at h
      split at h
      · rename_i e
        cases h
        subst e
        cases v <;> simp [Pat.fit] at h1
        exact ⟨c, by simp [Pat.fit, h1.1], hw⟩
      · cases h
  | .cls n qs, .cls m ps => fun s s' h v _ _ c h1 hw => by
      rw [Pat.cover] at h
      split at h
      · rename_i e
        subst e
        cases v with
        | cls o k vs =>
          cases o with
          | root =>
            simp [Pat.fit] at h1
            obtain ⟨c', e1, e2⟩ := covers_sound qs ps _ _ h _ _ _ _ h1.2 hw
            exact ⟨c', by simp [Pat.fit, h1.1, e1], e2⟩
          | _ => simp [Pat.fit] at h1
        | _ => simp [Pat.fit] at h1
      · cases h
  | .pack _, _ => fun s s' h => by simp [Pat.cover] at h
  | .params _ _, _ => fun s s' h => by simp [Pat.cover] at h
  | .num _, .var _ => fun s s' h => by simp [Pat.cover] at h
  | .num _, .pack _ => fun s s' h => by simp [Pat.cover] at h
  | .num _, .params _ _ => fun s s' h => by simp [Pat.cover] at h
  | .num _, .cls _ _ => fun s s' h => by simp [Pat.cover] at h
  | .cls _ _, .var _ => fun s s' h => by simp [Pat.cover] at h
  | .cls _ _, .pack _ => fun s s' h => by simp [Pat.cover] at h
  | .cls _ _, .params _ _ => fun s s' h => by simp [Pat.cover] at h
  | .cls _ _, .num _ => fun s s' h => by simp [Pat.cover] at h
theorem covers_sound : (qs ps : List Pat) → ∀ (s s' : List Id), Pat.covers qs ps s = some s' →
    ∀ (vs : List V) (b b' c : List (Id × Bind)), Pat.fits ps vs b = some b' → Within c s →
    ∃ c', Pat.fits qs vs c = some c' ∧ Within c' s'
  | [], [] => fun s s' h vs _ _ c h1 hw => by
      simp [Pat.covers] at h
      subst h
      rw [(fits_nil h1).1]
      exact ⟨c, by simp [Pat.fits], hw⟩
  | [], p :: ps => fun s s' h => by simp [Pat.covers] at h
  | q :: qs, ps => fun s s' h vs _ _ c h1 hw => by
      by_cases hq : ∃ x, q = .pack x ∧ qs = []
      · obtain ⟨x, rfl, rfl⟩ := hq
        simp [Pat.covers] at h
        subst h
        exact ⟨(x, .many vs) :: c, by simp [Pat.fits], within_cons hw x _⟩
      · cases ps with
        | nil =>
          rw [Pat.covers] at h
          · cases h
          all_goals (intros; simp_all)
        | cons p ps =>
          rw [Pat.covers] at h
          · split at h
            · rename_i hs
              rw [Bool.and_eq_true] at hs
              obtain ⟨s1, e1, e2⟩ := Option.bind_eq_some_iff.mp h
              obtain ⟨v, vs', b1, e, f1, f2⟩ := fits_cons_inv hs.2 h1
              obtain ⟨c1, g1, g2⟩ := cover_sound q p _ _ e1 _ _ _ _ f1 hw
              obtain ⟨c2, k1, k2⟩ := covers_sound qs ps _ _ e2 _ _ _ _ f2 g2
              rw [e]
              exact ⟨c2, fits_cons_of hs.1 g1 k1, k2⟩
            · cases h
          · intro x h1 h2
            exact hq ⟨x, h1, h2⟩
end

/-! ### Definitions of which one is more specialised -/

mutual
/-- An argument that fits, with a class of its own for each parameter. -/
def Pat.witness : Pat → V
  | .var x => .cls .root x []
  | .num n => .num n
  | .cls n ps => .cls .root n (Pat.witnesses ps)
  | .pack _ => .root
  | .params _ _ => .root
/-- Arguments that fit. -/
def Pat.witnesses : List Pat → List V
  | [] => []
  | .pack x :: ps => .cls .root x [] :: Pat.witnesses ps
  | .params x n :: ps => List.replicate n (.cls .root x []) ++ Pat.witnesses ps
  | p :: ps => Pat.witness p :: Pat.witnesses ps
end

/-- The first one is more specialised, or nothing fits both. -/
def sep (p q : Spec) : Bool :=
  Pat.aparts p.pats q.pats ||
    (Pat.covers q.pats p.pats []).isSome && (Pat.fits q.pats (Pat.witnesses q.pats) []).isSome &&
      (Pat.fits p.pats (Pat.witnesses q.pats) []).isNone

/-- What is needed for lists of arguments. -/
def SepAt (args : List V) (p q : Spec) : Prop := Matches p args → Matches q args → MoreSpecialised p q

theorem sep_sound {p q : Spec} (h : sep p q = true) (args : List V) : SepAt args p q := by
  rw [sep, Bool.or_eq_true, Bool.and_eq_true, Bool.and_eq_true] at h
  intro h1 h2
  rcases h with h | ⟨⟨h3, h4⟩, h5⟩
  · obtain ⟨b, e1⟩ := Option.ne_none_iff_exists'.mp h1
    obtain ⟨c, e2⟩ := Option.ne_none_iff_exists'.mp h2
    exact (aparts_sound _ _ h _ _ _ _ _ e1 e2).elim
  · refine ⟨fun as h => ?_, Pat.witnesses q.pats, ?_, ?_⟩
    · obtain ⟨b, e1⟩ := Option.ne_none_iff_exists'.mp h
      obtain ⟨s, e⟩ := Option.isSome_iff_exists.mp h3
      obtain ⟨c, e2, _⟩ := covers_sound _ _ _ _ e _ _ _ [] e1 (fun x hx => absurd rfl hx)
      unfold Matches
      rw [e2]
      exact Option.some_ne_none c
    · exact Option.isSome_iff_ne_none.mp h4
    · exact fun z => z (Option.isNone_iff_eq_none.mp h5)

/-- Every definition of a list and every later one. -/
def seps : List Spec → Bool
  | [] => true
  | p :: ps => ps.all (sep p) && seps ps

theorem seps_sound {ds : List Spec} (h : seps ds = true) (args : List V) : ds.Pairwise (SepAt args) := by
  induction ds with
  | nil => exact List.Pairwise.nil
  | cons p ps ih =>
    rw [seps, Bool.and_eq_true] at h
    exact List.Pairwise.cons (fun q hq => sep_sound (List.all_eq_true.mp h.1 q hq) args) (ih h.2)

theorem MoreSpecialised.asymm {p q : Spec} (h : MoreSpecialised p q) (h' : MoreSpecialised q p) : False := by
  obtain ⟨_, a, h1, h2⟩ := h
  exact h2 (h'.1 a h1)

/-- What `choose` gives is the first one that fits. -/
theorem choose_first {c : Ctx} {self : V} {args : List V} {ds : List Spec} {sp : Spec} :
    (∃ c', choose c self args ds = some (c', sp)) ↔
      ∃ i : Nat, ds[i]? = some sp ∧ Matches sp args ∧ ∀ (j : Nat) (sp' : Spec), j < i → ds[j]? = some sp' → ¬ Matches sp' args := by
  induction ds with
  | nil =>
    rw [choose]
    constructor
    · rintro ⟨_, h⟩; cases h
    · rintro ⟨i, h, _⟩; simp at h
  | cons d ds ih =>
    rw [choose]
    cases e : Pat.fits d.pats args [] with
    | some b =>
      have hd : Matches d args := by unfold Matches; rw [e]; exact Option.some_ne_none b
      constructor
      · rintro ⟨_, h⟩
        cases h
        exact ⟨0, rfl, hd, fun j _ hj => (Nat.not_lt_zero j hj).elim⟩
      · rintro ⟨i, h1, h2, h3⟩
        cases i with
        | zero =>
          cases h1
          exact ⟨_, rfl⟩
        | succ i => exact (h3 0 d (Nat.succ_pos i) rfl hd).elim
    | none =>
      have hd : ¬ Matches d args := fun h => h e
      dsimp only
      rw [ih]
      constructor
      · rintro ⟨i, h1, h2, h3⟩
        refine ⟨i + 1, h1, h2, fun j sp' hj hj' => ?_⟩
        cases j with
        | zero => cases hj'; exact hd
        | succ j => exact h3 j sp' (Nat.lt_of_succ_lt_succ hj) hj'
      · rintro ⟨i, h1, h2, h3⟩
        cases i with
        | zero => cases h1; exact (hd h2).elim
        | succ i => exact ⟨i, h1, h2, fun j sp' hj hj' => h3 (j + 1) sp' (Nat.succ_lt_succ hj) hj'⟩

theorem pairwise_get {args : List V} {ds : List Spec} (h : ds.Pairwise (SepAt args)) {i j : Nat} (hij : i < j) {p q : Spec}
    (hp : ds[i]? = some p) (hq : ds[j]? = some q) : SepAt args p q := by
  obtain ⟨hi, e1⟩ := List.getElem?_eq_some_iff.mp hp
  obtain ⟨hj, e2⟩ := List.getElem?_eq_some_iff.mp hq
  rw [← e1, ← e2]
  exact List.pairwise_iff_getElem.mp h i j hi hj hij

/-- The first one that fits is more specialised than the later ones that fit. -/
def Best (args : List V) (ds : List Spec) : Prop :=
  ∀ (i : Nat) (p : Spec), ds[i]? = some p → Matches p args →
    (∀ (j : Nat) (q : Spec), j < i → ds[j]? = some q → ¬ Matches q args) →
    ∀ (j : Nat) (q : Spec), i < j → ds[j]? = some q → Matches q args → MoreSpecialised p q

theorem best_of {args : List V} {ds : List Spec} (h : ds.Pairwise (SepAt args)) : Best args ds :=
  fun _ _ h1 h2 _ _ _ hij h4 h5 => pairwise_get h hij h1 h4 h2 h5

theorem exists_first {args : List V} {ds : List Spec} (c : Ctx) (self : V) (h : ∃ sp ∈ ds, Matches sp args) :
    ∃ sp c', choose c self args ds = some (c', sp) := by
  induction ds with
  | nil => obtain ⟨_, h, _⟩ := h; cases h
  | cons d ds ih =>
    rw [choose]
    cases e : Pat.fits d.pats args [] with
    | some b => exact ⟨_, _, rfl⟩
    | none =>
      obtain ⟨sp, h1, h2⟩ := h
      rcases List.mem_cons.mp h1 with rfl | h1
      · exact (h2 e).elim
      · exact ih ⟨sp, h1, h2⟩

/-- The first one that fits is the one that is taken. -/
theorem takes_iff {args : List V} {ds : List Spec} (h : Best args ds) (c : Ctx) (self : V) (sp : Spec) :
    Takes ds args sp ↔ ∃ c', choose c self args ds = some (c', sp) := by
  constructor
  · rintro ⟨i, h1, h2, h3⟩
    obtain ⟨sp', c', e⟩ := exists_first c self ⟨sp, List.mem_of_getElem? h1, h2⟩
    obtain ⟨j, k1, k2, k3⟩ := choose_first.mp ⟨c', e⟩
    by_cases hj : j = i
    · subst hj
      rw [h1] at k1
      cases k1
      exact ⟨c', e⟩
    · rcases Nat.lt_or_gt_of_ne hj with hl | hg
      · exact ((h3 j sp' hj k1 k2).asymm (h j sp' k1 k2 k3 i sp hl h1 h2)).elim
      · exact (k3 i sp hg h1 h2).elim
  · rw [choose_first]
    rintro ⟨i, h1, h2, h3⟩
    refine ⟨i, h1, h2, fun j sp' hj hj' hm => ?_⟩
    rcases Nat.lt_or_gt_of_ne hj with hl | hg
    · exact (h3 j sp' hl hj' hm).elim
    · exact h i sp h1 h2 h3 j sp' hg hj' hm

/-! ### Member templates -/

mutual
/-- Every member template has one definition. -/
def Spec.single : Spec → Bool
  | .mk _ _ ds => Decl.singles ds
/-- The same of members. -/
def Decl.singles : List Decl → Bool
  | [] => true
  | .tmpl _ [sp] :: ds => sp.single && Decl.singles ds
  | .tmpl _ _ :: _ => false
  | .type _ _ :: ds => Decl.singles ds
  | .assert _ :: ds => Decl.singles ds
end

theorem single_member {n : Id} : (ds : List Decl) → Decl.singles ds = true →
    memberTemplate n ds = [] ∨ ∃ sp, memberTemplate n ds = [sp] ∧ sp.single = true
  | [], _ => .inl rfl
  | .type _ _ :: ds, h => by
      rw [Decl.singles] at h
      rw [memberTemplate]
      · exact single_member ds h
      · intros; simp_all
  | .assert _ :: ds, h => by
      rw [Decl.singles] at h
      rw [memberTemplate]
      · exact single_member ds h
      · intros; simp_all
  | .tmpl x [] :: ds, h => by simp [Decl.singles] at h
  | .tmpl x (a :: b :: l) :: ds, h => by simp [Decl.singles] at h
  | .tmpl x [sp] :: ds, h => by
      rw [Decl.singles, Bool.and_eq_true] at h
      rw [memberTemplate]
      split
      · exact .inr ⟨sp, rfl, h.1⟩
      · exact single_member ds h.2

end Metaparse.Tmpl
