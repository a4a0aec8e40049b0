import Verif.Lemmas.Templates.Strings
import Verif.Spec.TemplatesStrings
import Verif.Lemmas.Out
/-!
# The operations on strings
-/

set_option linter.unusedVariables false
set_option linter.unusedSimpArgs false
set_option linter.unusedSectionVars false

namespace Metaparse.Tmpl

open Metaparse (StrImpl StrIter str11 str98 Str11.atC)

variable {U : User}

/-! ### What is derived from a class -/

/-- The members are those of the class, or there are none. -/
def Like [Lang] (U : User) (x : Out Members) : Out V → Prop
  | .ok v => x = inst U v
  | .ill _ => ∃ f, x = .ill f
  | .deep => x = .deep

section
variable [L : Lang] {a b : List Int} {c n : Int} {x : Out Members} {y : Out V}

theorem like_get {k : Id} (h : Like U x y) (hy : ∀ v, y = .ok v → get (inst U) v k = .ok v) :
    Same (x.bind fun m => m.ty k) y := by
  cases y with
  | ok v => rw [h]; have := hy v rfl; unfold get at this; rw [this]; rfl
  | ill f => obtain ⟨g, rfl⟩ := h; exact trivial
  | deep => rw [h]; exact trivial

omit L in
theorem same_okL {α : Type} {x : Out α} {a : α} (h : Same x (.ok a)) : x = .ok a := by
  cases x with
  | ok b => exact congrArg _ h
  | _ => exact absurd h id

omit L in
theorem same_illL {α : Type} {x : Out α} {f : Metaparse.Fault} (h : Same x (.ill f)) : ∃ g, x = .ill g := by
  cases x with
  | ill g => exact ⟨g, rfl⟩
  | _ => exact absurd h id

omit L in
theorem same_deepL {α : Type} {x : Out α} (h : Same x .deep) : x = .deep := by
  cases x with
  | deep => rfl
  | _ => exact absurd h id

theorem like_inst {v : V} {B : Out Members} (hb : instantiate U (inst U) v = B) (h : Like U B y) : Like U (inst U v) y := by
  rw [inst_of hb]; exact h

theorem no_body {o : V} {k : Id} {args : List V} {h : V → Out Members} (hr : resolve (.cls o k args) = none) (ho : ∀ j, o ≠ .fn j) :
    instantiate U h (.cls o k args) = .ill .noSpecialisation := by
  cases o with
  | fn j => exact absurd rfl (ho j)
  | _ => simp only [instantiate, hr]

omit L in
theorem choose_none {c : Ctx} {self : V} {args : List V} : ∀ {l : List Spec}, (∀ sp ∈ l, Pat.fits sp.pats args [] = none) →
    choose c self args l = none
  | [], _ => rfl
  | sp :: l, h => choose_next (h sp (by simp)) (choose_none fun s hs => h s (by simp [hs]))

/-! ### The implementation of C++98 -/

section Cpp98
variable {l : Limits} (hL : L.headers = .cpp98 l)
include hL

theorem strV_mk {cs : List Int} : K .string (fill .string (cs.map .num)) = strV (Metaparse.Str98.mk l.string cs) := by
  rw [fill_98 hL rfl, strV, Metaparse.Str98.mk]
  simp [Metaparse.Str98.noChar]

theorem isStr_98 : IsStr a ↔ a.length = l.string ∧ 1 < l.string := by
  rw [IsStr, hL]; rfl

theorem strImpl_98 : strImpl = str98 l.string := by
  rw [strImpl, hL]; rfl

omit hL L in
theorem mk_length {k : Nat} {cs : List Int} (h : cs.length ≤ k) : (Metaparse.Str98.mk k cs).length = k := by
  simp [Metaparse.Str98.mk]; omega

theorem at98 (ha : IsStr a) : Like U (inst U (K .impl_at_c [strV a, .num n])) (omap charV (strImpl.atC a n)) := by
  rw [isStr_98 hL] at ha
  rw [strImpl_98 hL]
  simp only [str98, Metaparse.Str98.atC]
  split
  · rename_i hn
    obtain ⟨m, rfl⟩ := Int.eq_ofNat_of_zero_le hn.1
    have hm : m < l.string := by omega
    refine like_inst (body98_impl_at_c hL (by simp [ha.1]) hm) ?_
    have : a[m]?.getD (-1) = a.getD m Metaparse.Str98.noChar := by
      rw [List.getD_eq_getElem?_getD]; rfl
    show inst U _ = inst U _
    simp only [charV, Int.toNat_natCast, List.getElem?_map]
    rw [List.getElem?_eq_getElem (by omega)] at this ⊢
    simp at this ⊢
    rw [this]
  · rename_i hn
    obtain ⟨hd⟩ := L; change hd = _ at hL; subst hL; letI := cpp98 l
    refine like_inst (no_body (resolve_top (choose_none ?_)) (by intro k hk; cases hk)) ⟨_, rfl⟩
    intro sp hsp
    obtain ⟨m, hm, rfl⟩ := List.mem_map.1 hsp
    have hm := List.mem_range.1 hm
    have hne : ¬ (m : Int) = n := by omega
    show Pat.fits [.cls .string [.params .C l.string], .num m] _ _ = _
    rw [strV, fits_cls, fits_all (by simp [ha.1]) (by rfl), Option.bind_some, fits_num_ne hne]

theorem update98 (ha : IsStr a) :
    Like U (inst U (K .impl_update_c [strV a, .num n, .num c])) (omap strV (Metaparse.Str98.updateC l.string a n c)) := by
  rw [isStr_98 hL] at ha
  have hmk := fun cs => strV_mk (cs := cs) hL
  obtain ⟨hd⟩ := L; change hd = _ at hL; subst hL; letI := cpp98 l
  simp only [Metaparse.Str98.updateC]
  split
  · rename_i hn
    obtain ⟨m, rfl⟩ := Int.eq_ofNat_of_zero_le hn.1
    have hm : m < l.string := by omega
    show inst U _ = inst U _
    have hb : instantiate U (inst U) (K .impl_update_c [strV a, .num m, .num c]) =
        inst U (K .string (fill .string ((a.map .num).take m ++ [.num c] ++ ((a.map .num).drop (m + 1)).take (l.string - 1 - (m + 1))))) := by
      refine Eq.trans (body_of (resolve_top (choose_upto (n := m) (b := [(.Ch, .one (.num c)), (.C, .many (a.map .num))]) hm ?_ ?_))
        (by intro k hk; cases hk)) ?_
      · intro j hj
        have : ¬ (j : Int) = m := by omega
        show Pat.fits [.cls .string [.params .C l.string], .num j, .var .Ch] _ _ = _
        rw [strV, fits_cls, fits_all (by simp [ha.1]) (by rfl), Option.bind_some, fits_num_ne this]
      · show Pat.fits [.cls .string [.params .C l.string], .num m, .var .Ch] _ _ = _
        rw [strV, fits_cls, fits_all (by simp [ha.1]) (by rfl), Option.bind_some, fits_num, fits_var (by rfl), Pat.fits]
      · simp only [Spec.bases, Spec.decls, evBases, evDecls, Tm.ev, evs_append]
        rw [List.range_eq_range', evs_nths (vs := a.map .num) rfl (by simp; omega)]
        by_cases hk : m + 1 + (l.string - 1 - (m + 1)) ≤ a.length
        · rw [evs_nths (vs := a.map .num) rfl (by simpa using hk)]
          body_simp
          simp
        · have h0 : l.string - 1 - (m + 1) = 0 := by omega
          rw [h0]
          body_simp
          simp [Tm.evs, Out.bind_ok]
    rw [inst_of hb]
    simp only [Int.toNat_natCast]
    rw [← hmk]
    congr 3
    simp [List.map_take, List.map_drop, List.drop_take]
  · rename_i hn
    refine like_inst (no_body (resolve_top (choose_none ?_)) (by intro k hk; cases hk)) ⟨_, rfl⟩
    intro sp hsp
    obtain ⟨m, hm, rfl⟩ := List.mem_map.1 hsp
    have hm := List.mem_range.1 hm
    have hne : ¬ (m : Int) = n := by omega
    show Pat.fits [.cls .string [.params .C l.string], .num m, .var .Ch] _ _ = _
    rw [strV, fits_cls, fits_all (by simp [ha.1]) (by rfl), Option.bind_some, fits_num_ne hne]

omit hL in
/-- A list is some elements, the last of which is not the mark, and marks. -/
theorem split_marks (w : Int) : ∀ a : List Int, ∃ ys k, a = ys ++ List.replicate k w ∧ ys.getLast? ≠ some w
  | [] => ⟨[], 0, rfl, by simp⟩
  | x :: a => by
      obtain ⟨ys, k, rfl, hy⟩ := split_marks w a
      cases ys with
      | nil =>
          by_cases hx : x = w
          · subst hx
            exact ⟨[], k + 1, by simp [List.replicate_succ], by simp⟩
          · exact ⟨[x], k, by simp, by simpa using hx⟩
      | cons z ys => exact ⟨x :: z :: ys, k, by simp, by rw [List.getLast?_cons_cons]; exact hy⟩

omit hL in
theorem size_none (hy : a.getLast? ≠ some (-1)) (hn : l.string = a.length) :
    Metaparse.Str98.size l.string a = .ill .noSpecialisation := by
  rw [Metaparse.Str98.size]
  have : (List.range l.string).find? (Metaparse.Str98.sizeMatches a) = none := by
    rw [List.find?_eq_none]
    intro m hm
    have hm := List.mem_range.1 hm
    simp only [Metaparse.Str98.sizeMatches, List.all_eq_true, beq_iff_eq]
    intro h
    have hd : a.drop m ≠ [] := by
      intro e
      have := congrArg List.length e
      simp at this
      omega
    have := h _ (List.getLast_mem hd)
    apply hy
    rw [List.getLast_drop hd] at this
    have hne : a ≠ [] := by intro e; subst e; simp at hd
    rw [List.getLast?_eq_some_getLast hne, this]
    rfl
  rw [this]

omit hL in
theorem size_some {ys : List Int} {k : Nat} (hy : ys.getLast? ≠ some (-1)) (hk : 0 < k) (hn : l.string = ys.length + k) :
    Metaparse.Str98.size l.string (ys ++ List.replicate k (-1)) = .ok ys.length := by
  rw [Metaparse.Str98.size]
  have : (List.range l.string).find? (Metaparse.Str98.sizeMatches (ys ++ List.replicate k (-1))) = some ys.length := by
    rw [List.find?_range_eq_some]
    refine ⟨?_, by simp; omega, ?_⟩
    · simp [Metaparse.Str98.sizeMatches, Metaparse.Str98.noChar]
    · intro m hm
      simp only [Metaparse.Str98.sizeMatches, Bool.not_eq_true', List.all_eq_false, beq_iff_eq]
      have hne : ys ≠ [] := by intro e; subst e; simp at hm
      refine ⟨ys.getLast hne, ?_, ?_⟩
      · rw [List.drop_append_of_le_length (by omega)]
        refine List.mem_append_left _ ?_
        have h2 : ys.drop m ≠ [] := by
          intro e
          have := congrArg List.length e
          simp at this
          omega
        have := List.getLast_mem h2
        rwa [List.getLast_drop h2] at this
      · intro e
        apply hy
        rw [List.getLast?_eq_some_getLast hne, e]
        rfl
  rw [this]

theorem size98 (ha : IsStr a) : Like U (inst U (K .impl_size [strV a])) (omap intV (strImpl.size a)) := by
  rw [isStr_98 hL] at ha
  rw [strImpl_98 hL]
  show Like U _ (omap intV (Metaparse.Str98.size l.string a))
  obtain ⟨ys, k, rfl, hy⟩ := split_marks (-1) a
  cases k with
  | zero =>
      simp only [List.replicate_zero, List.append_nil] at ha hy ⊢
      rw [size_none hy ha.1.symm]
      obtain ⟨hd⟩ := L; change hd = _ at hL; subst hL; letI := cpp98 l
      refine like_inst (no_body (resolve_top (choose_none ?_)) (by intro k hk; cases hk)) ⟨_, rfl⟩
      intro sp hsp
      obtain ⟨m, hm, rfl⟩ := List.mem_map.1 hsp
      have hm := List.mem_range.1 hm
      have := upto_before (x := .C) (b := []) (ys := ys.map .num) (k := l.string) (mark_num (n := -1)) rfl (last_num hy)
        (n := m) (by simp; omega) (by simp; omega)
      show Pat.fits [.cls .string _] _ _ = _
      rw [strV, fits_cls]
      simp only [List.length_map, ha.1, Nat.sub_self, List.replicate_zero, List.append_nil] at this
      exact (congrArg (Option.bind · _) this).trans rfl
  | succ k =>
      have hn : l.string = ys.length + (k + 1) := by simpa using ha.1.symm
      rw [size_some hy (by omega) hn]
      show inst U _ = inst U _
      have := body98_impl_size (U := U) (h := inst U) hL (ys := ys.map .num) (by simp; omega) (last_num hy)
      rw [List.length_map, show l.string - ys.length = k + 1 by omega] at this
      rw [strV, List.map_append, List.map_replicate, inst_of this]
      rfl

theorem push_front98 (ha : IsStr a) :
    Like U (inst U (K .impl_push_front_c [strV a, .num c])) (omap strV (strImpl.pushFrontC a c)) := by
  rw [strImpl_98 hL]
  rw [isStr_98 hL] at ha
  show inst U _ = inst U _
  rw [← strV_mk hL]
  obtain ⟨hd⟩ := L; change hd = _ at hL; subst hL; letI := cpp98 l
  have hp : Pat.fits [.cls .string [.params .C l.string], .var .Ch] [strV a, .num c] [] =
      some [(.Ch, .one (.num c)), (.C, .many (a.map .num))] := by
    rw [strV, fits_cls, fits_all (by simp [ha.1]) (by rfl), Option.bind_some, fits_var (by rfl), Pat.fits]
  have hb : instantiate U (inst U) (K .impl_push_front_c [strV a, .num c]) =
      inst U (K .string (fill .string (.num c :: (a.map .num).take (l.string - 1)))) := by
    refine Eq.trans (body_of (resolve_top (choose_here hp)) (by intro k hk; cases hk)) ?_
    simp only [Spec.bases, Spec.decls, evBases, evDecls, Tm.ev, evs_append]
    rw [List.range_eq_range', evs_nths (vs := a.map .num) rfl (by simp; omega)]
    body_simp
    simp
  rw [inst_of hb]
  simp [List.map_take]

theorem pop_front98 (ha : IsStr a) : Like U (inst U (K .impl_pop_front [strV a])) (omap strV (strImpl.popFront a)) := by
  rw [strImpl_98 hL]
  rw [isStr_98 hL] at ha
  cases a with
  | nil => simp at ha; omega
  | cons d a =>
      show inst U _ = inst U _
      have := body98_impl_pop_front (U := U) (h := inst U) hL (c := .num d) (vs := a.map .num) (by simpa using ha.1)
      rw [strV, List.map_cons, inst_of this, ← strV_mk hL]
      have h1 : List.take l.string (d :: a) = d :: a := List.take_of_length_le (by simp at ha ⊢; omega)
      rw [h1]
      rw [fill_full hL rfl (by simpa using ha.1)]
      simp [Metaparse.Str98.noChar]

theorem strV_type98 (ha : IsStr a) : get (inst U) (strV a) .type = .ok (strV a) := by
  rw [isStr_98 hL] at ha
  rw [strV]
  members (body98_string (vs := a.map .num) hL (by simpa using ha.1))

theorem size_type98 (ha : IsStr a) : Same (get (inst U) (K .impl_size [strV a]) .type) (omap intV (strImpl.size a)) :=
  like_get (size98 hL ha) fun v hv => by
    cases h : strImpl.size a with
    | ok m => rw [h] at hv; cases hv; exact int_type
    | _ => rw [h] at hv; cases hv

theorem push_back98 (ha : IsStr a) :
    Like U (inst U (K .impl_push_back_c [strV a, .num c])) (omap strV (strImpl.pushBackC a c)) := by
  have hs := size_type98 (U := U) hL ha
  have ht := strV_type98 (U := U) hL ha
  refine like_inst (body98_impl_push_back_c hL) ?_
  rw [ht]
  simp only [Out.bind_ok]
  rw [strImpl_98 hL] at hs ⊢
  change Same _ (omap intV (Metaparse.Str98.size l.string a)) at hs
  show Like U _ (omap strV ((Metaparse.Str98.size l.string a).bind fun n => Metaparse.Str98.updateC l.string a n c))
  cases h : Metaparse.Str98.size l.string a with
  | ok m =>
      rw [h] at hs
      rw [same_okL hs]
      simp only [Out.bind_ok, intV, int_value, obind_ok]
      exact update98 hL ha
  | ill f =>
      rw [h] at hs
      obtain ⟨g, hg⟩ := same_illL hs
      rw [hg]
      exact ⟨_, rfl⟩
  | deep =>
      rw [h] at hs
      rw [same_deepL hs]
      rfl

theorem pop_back98 (ha : IsStr a) {v : V} (hv : get (inst U) v .type = .ok (strV a)) :
    Like U (inst U (K .impl_pop_back [v])) (omap strV (strImpl.popBack a)) := by
  have hs := size_type98 (U := U) hL ha
  refine like_inst (body98_impl_pop_back hL) ?_
  rw [hv]
  simp only [Out.bind_ok]
  rw [strImpl_98 hL] at hs ⊢
  change Same _ (omap intV (Metaparse.Str98.size l.string a)) at hs
  show Like U _ (omap strV ((Metaparse.Str98.size l.string a).bind fun n =>
    Metaparse.Str98.updateC l.string a (n - 1) Metaparse.Str98.noChar))
  cases h : Metaparse.Str98.size l.string a with
  | ok m =>
      rw [h] at hs
      rw [same_okL hs]
      simp only [Out.bind_ok, intV, int_value, obind_ok, op_sub]
      exact update98 hL ha
  | ill f =>
      rw [h] at hs
      obtain ⟨g, hg⟩ := same_illL hs
      rw [hg]
      exact ⟨_, rfl⟩
  | deep =>
      rw [h] at hs
      rw [same_deepL hs]
      rfl

end Cpp98
end

/-! ### The implementation of C++11 -/

section Cpp11
attribute [local instance] cpp11
variable {a : List Int} {c n : Int}

theorem strImpl_11 : strImpl = str11 := rfl

theorem at11 : ∀ {a : List Int} {n : Int}, Like U (inst U (K .impl_at_c [strV a, .num n])) (omap charV (Metaparse.Str11.atC a n))
  | [], n => like_inst (no_body (resolve_top rfl) (by intro k hk; cases hk)) ⟨_, rfl⟩
  | c :: a, n => by
      rw [Metaparse.Str11.atC]
      by_cases hn : n = 0
      · subst hn
        rw [if_pos rfl, strV, List.map_cons]
        refine like_inst body_impl_at_c_0 ?_
        rw [obind_ok]
        rfl
      · rw [if_neg hn, strV, List.map_cons]
        refine like_inst (body_impl_at_c_1 ?_) ?_
        · have h1 : Pat.fits [.var .C, .pack .Cs] (V.num c :: a.map .num) [] = some [(.Cs, .many (a.map .num)), (.C, .one (.num c))] := rfl
          rw [fits_cls, h1, Option.bind_some, fits_num_ne (Ne.symm hn)]
        · rw [op_sub, Out.bind_ok, obind_ok]
          exact at11

theorem strV_type11 : get (inst U) (strV a) .type = .ok (strV a) := by
  rw [strV]
  members body_string

theorem pop_back11 : ∀ {a : List Int}, Like U (inst U (K .impl_pop_back [strV a])) (omap strV (Metaparse.Str11.popBack a))
  | [] => like_inst (no_body (resolve_top rfl) (by intro k hk; cases hk)) ⟨_, rfl⟩
  | [c] => by
      refine like_inst body_impl_pop_back_0 ?_
      rw [obind_ok]
      show inst U _ = inst U _
      rw [inst_of body_mpl_clear]
      have ht : get (inst U) (K .mpl_sequence_tag [K .string [.num c]]) .type = .ok (K .string_tag []) := by
        rw [get_inst body_mpl_sequence_tag]
        have : get (inst U) (K .string [.num c]) .tag = .ok (K .string_tag []) := by members body_string
        dsimp! [this]
      rw [ht, Out.bind_ok, owner_inst body_mpl_clear_impl]
      dsimp! []
      rw [inst_of body_mpl_clear_impl_apply, obind_ok]
      rfl
  | c :: d :: a => by
      have ih := pop_back11 (a := d :: a)
      rw [Metaparse.Str11.popBack, strV, List.map_cons]
      refine like_inst (body_impl_pop_back_1 (by simp [Pat.fits, Pat.fit, find])) ?_
      have hg : Same (get (inst U) (K .impl_pop_back [strV (d :: a)]) .type) (omap strV (Metaparse.Str11.popBack (d :: a))) :=
        like_get ih fun v hv => by
          cases h : Metaparse.Str11.popBack (d :: a) with
          | ok m => rw [h] at hv; cases hv; exact strV_type11
          | _ => rw [h] at hv; cases hv
      change Like U ((get (inst U) (K .impl_pop_back [strV (d :: a)]) .type).bind _) _
      cases h : Metaparse.Str11.popBack (d :: a) with
      | ok m =>
          rw [h] at hg
          rw [same_okL hg]
          simp only [Out.bind_ok, obind_ok]
          show inst U _ = inst U _
          rw [strV, inst_of body_impl_push_front_c, obind_ok]
          rfl
      | ill f =>
          rw [h] at hg
          obtain ⟨g, hg⟩ := same_illL hg
          rw [hg]
          exact ⟨_, rfl⟩
      | deep =>
          rw [h] at hg
          rw [same_deepL hg]
          rfl

theorem size11 : Like U (inst U (K .impl_size [strV a])) (omap intV (Metaparse.Str11.size a)) := by
  refine like_inst body_impl_size ?_
  rw [obind_ok, List.length_map]
  rfl

theorem push_back11 : Like U (inst U (K .impl_push_back_c [strV a, .num c])) (omap strV (Metaparse.Str11.pushBackC a c)) := by
  refine like_inst body_impl_push_back_c ?_
  rw [obind_ok]
  show inst U _ = inst U (strV (a ++ [c]))
  rw [strV, List.map_append]
  rfl

theorem push_front11 : Like U (inst U (K .impl_push_front_c [strV a, .num c])) (omap strV (Metaparse.Str11.pushFrontC a c)) := by
  refine like_inst body_impl_push_front_c ?_
  rw [obind_ok]
  rfl

theorem pop_front11 : Like U (inst U (K .impl_pop_front [strV a])) (omap strV (Metaparse.Str11.popFront a)) := by
  cases a with
  | nil => exact like_inst (no_body (resolve_top rfl) (by intro k hk; cases hk)) ⟨_, rfl⟩
  | cons c a =>
      refine like_inst body_impl_pop_front ?_
      rw [obind_ok]
      rfl

end Cpp11

/-! ### Both -/

section
variable [L : Lang] {a b : List Int} {c n : Int}

theorem strV_type (ha : IsStr a) : get (inst U) (strV a) .type = .ok (strV a) := by
  obtain ⟨_ | l⟩ := L
  · exact strV_type11
  · exact strV_type98 (L := ⟨.cpp98 l⟩) rfl ha

theorem strV_tag (ha : IsStr a) : get (inst U) (strV a) .tag = .ok (K .string_tag []) := by
  rw [strV]
  obtain ⟨_ | l⟩ := L
  · letI := cpp11
    members body_string
  · letI : Lang := ⟨.cpp98 l⟩
    members (body98_string (vs := a.map .num) (L := ⟨.cpp98 l⟩) rfl (by simpa using ha.1))

theorem size_like (ha : IsStr a) : Like U (inst U (K .impl_size [strV a])) (omap intV (strImpl.size a)) := by
  obtain ⟨_ | l⟩ := L
  · exact size11
  · exact size98 (L := ⟨.cpp98 l⟩) rfl ha

theorem at_like (ha : IsStr a) : Like U (inst U (K .impl_at_c [strV a, .num n])) (omap charV (strImpl.atC a n)) := by
  obtain ⟨_ | l⟩ := L
  · exact at11
  · exact at98 (L := ⟨.cpp98 l⟩) rfl ha

theorem push_back_like (ha : IsStr a) : Like U (inst U (K .impl_push_back_c [strV a, .num c])) (omap strV (strImpl.pushBackC a c)) := by
  obtain ⟨_ | l⟩ := L
  · exact push_back11
  · exact push_back98 (L := ⟨.cpp98 l⟩) rfl ha

theorem push_front_like (ha : IsStr a) :
    Like U (inst U (K .impl_push_front_c [strV a, .num c])) (omap strV (strImpl.pushFrontC a c)) := by
  obtain ⟨_ | l⟩ := L
  · exact push_front11
  · exact push_front98 (L := ⟨.cpp98 l⟩) rfl ha

theorem pop_front_like (ha : IsStr a) : Like U (inst U (K .impl_pop_front [strV a])) (omap strV (strImpl.popFront a)) := by
  obtain ⟨_ | l⟩ := L
  · exact pop_front11
  · exact pop_front98 (L := ⟨.cpp98 l⟩) rfl ha

theorem pop_back_like (ha : IsStr a) : Like U (inst U (K .impl_pop_back [strV a])) (omap strV (strImpl.popBack a)) := by
  obtain ⟨_ | l⟩ := L
  · exact pop_back11
  · exact pop_back98 (L := ⟨.cpp98 l⟩) rfl ha (strV_type98 (L := ⟨.cpp98 l⟩) rfl ha)

omit L in
/-- What the operations give are classes of strings again. -/
theorem update_isStr {l : Limits} (ha : a.length = l.string ∧ 1 < l.string) (hn : Metaparse.Str98.updateC l.string a n c = .ok b) :
    b.length = l.string ∧ 1 < l.string := by
  simp only [Metaparse.Str98.updateC] at hn
  split at hn
  · rename_i h
    cases hn
    refine ⟨mk_length ?_, ha.2⟩
    simp [ha.1]
    omega
  · cases hn

theorem push_back_isStr (ha : IsStr a) (h : strImpl.pushBackC a c = .ok b) : IsStr b := by
  obtain ⟨_ | l⟩ := L
  · trivial
  · obtain ⟨m, _, hm⟩ := Out.bind_eq_ok.1 (show (Metaparse.Str98.size l.string a).bind _ = _ from h)
    exact update_isStr ha hm

theorem pop_back_isStr (ha : IsStr a) (h : strImpl.popBack a = .ok b) : IsStr b := by
  obtain ⟨_ | l⟩ := L
  · trivial
  · obtain ⟨m, _, hm⟩ := Out.bind_eq_ok.1 (show (Metaparse.Str98.size l.string a).bind _ = _ from h)
    exact update_isStr ha hm

theorem push_front_isStr (ha : IsStr a) (h : strImpl.pushFrontC a c = .ok b) : IsStr b := by
  obtain ⟨_ | l⟩ := L
  · trivial
  · cases h
    refine ⟨mk_length ?_, ha.2⟩
    have : 1 < l.string := ha.2
    simp; omega

theorem pop_front_isStr (ha : IsStr a) (h : strImpl.popFront a = .ok b) : IsStr b := by
  obtain ⟨_ | l⟩ := L
  · trivial
  · cases h
    refine ⟨mk_length ?_, ha.2⟩
    have : 1 < l.string := ha.2
    simp; omega

theorem clear_isStr (ha : IsStr a) : IsStr strImpl.clear := by
  obtain ⟨_ | l⟩ := L
  · trivial
  · exact ⟨mk_length (by simp), ha.2⟩
end

end Metaparse.Tmpl
