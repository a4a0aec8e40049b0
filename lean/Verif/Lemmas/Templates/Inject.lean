import Verif.Lemmas.Templates.Strings
/-!
# Different values are different classes
-/

set_option linter.unusedSimpArgs false
set_option linter.unusedSectionVars false

namespace Metaparse.Tmpl

open Metaparse (Val Msg GExp Pos Res)

variable [L : Lang]

theorem encMsg_inj : {a b : Msg} → encMsg a = encMsg b → a = b
  | .unpaired l c m, b, h => by
      cases b with
      | unpaired l' c' m' =>
          simp only [encMsg, V.cls.injEq, List.cons.injEq, V.num.injEq, and_true, true_and] at h
          obtain ⟨rfl, rfl, h⟩ := h
          rw [encMsg_inj h]
      | _ => simp [encMsg] at h
  | .digitExpected, b, h | .endOfInputExpected, b, h | .expectedToFail, b, h | .letterExpected, b, h
  | .noneOfTheExpectedCasesFound, b, h | .unexpectedCharacter, b, h | .unexpectedEndOfInput, b, h
  | .whitespaceExpected, b, h => by cases b <;> simp [encMsg] at h ⊢
  | .indexOutOfRange _ _ _, b, h | .literalExpected _, b, h | .user _, b, h => by
      cases b <;> simp [encMsg] at h ⊢ <;> first | exact h | exact Int.ofNat.inj h | simp_all

theorem encStr_good {a : List Int} (h : GoodStr a) : encStr a = K .string (fill .string (a.map .num)) :=
  encStr_short (short_of_good h)

theorem num_inj : {a b : List Int} → a.map V.num = b.map V.num → a = b
  | [], [], _ => rfl
  | [], _ :: _, h => by simp at h
  | _ :: _, [], h => by simp at h
  | c :: a, d :: b, h => by
      simp only [List.map_cons, List.cons.injEq, V.num.injEq] at h
      rw [h.1, num_inj h.2]

/-- Lists that are the same with values at the end that they do not end with. -/
theorem filled_inj {w : V} : {a b : List V} → {m n : Nat} → a.getLast? ≠ some w → b.getLast? ≠ some w →
    a ++ List.replicate m w = b ++ List.replicate n w → a = b
  | [], [], _, _, _, _, _ => rfl
  | [], d :: b, m, n, _, hb, h => by
      exfalso
      have hm : ∀ x ∈ d :: b, x = w := by
        intro x hx
        have : x ∈ [] ++ List.replicate m w := by rw [h]; exact List.mem_append_left _ hx
        exact List.eq_of_mem_replicate this
      cases hl : (d :: b).getLast? with
      | none => simp at hl
      | some x => exact hb (by rw [hl, hm x (List.mem_of_getLast? hl)])
  | c :: a, [], m, n, ha, _, h => by
      exfalso
      have hm : ∀ x ∈ c :: a, x = w := by
        intro x hx
        have : x ∈ [] ++ List.replicate n w := by rw [← h]; exact List.mem_append_left _ hx
        exact List.eq_of_mem_replicate this
      cases hl : (c :: a).getLast? with
      | none => simp at hl
      | some x => exact ha (by rw [hl, hm x (List.mem_of_getLast? hl)])
  | c :: a, d :: b, m, n, ha, hb, h => by
      simp only [List.cons_append, List.cons.injEq] at h
      obtain ⟨rfl, h⟩ := h
      have tail : ∀ {l : List V}, (c :: l).getLast? ≠ some w → l.getLast? ≠ some w := by
        intro l hl e
        cases l with
        | nil => cases e
        | cons => rw [List.getLast?_cons_cons] at hl; exact hl e
      rw [filled_inj (tail ha) (tail hb) h]

theorem encStr_inj {a b : List Int} (ha : GoodStr a) (hb : GoodStr b) (h : encStr a = encStr b) : a = b := by
  rw [encStr_good ha, encStr_good hb, V.cls.injEq] at h
  replace h := h.2.2
  obtain ⟨_ | l⟩ := L
  · letI := cpp11; exact num_inj h
  · letI : Lang := ⟨.cpp98 l⟩
    rw [fill_98 (L := ⟨.cpp98 l⟩) rfl rfl, fill_98 (L := ⟨.cpp98 l⟩) rfl rfl] at h
    exact num_inj (filled_inj (last_num ha.2) (last_num hb.2) h)

theorem encG_inj : {a b : GExp} → LegibleG a → LegibleG b → encG a = encG b → a = b
  | .chr c, b, _, _, h => by cases b <;> simp [encG] at h ⊢; exact h
  | .name n, b, ha, hb, h => by
      cases b <;> simp [encG] at h ⊢
      exact encStr_inj ha hb h
  | .rep o e, b, ha, hb, h => by
      cases b <;> simp [encG] at h ⊢
      exact ⟨h.1, encG_inj ha hb h.2⟩
  | .seq x y, b, ha, hb, h => by
      cases b <;> simp [encG] at h ⊢
      exact ⟨encG_inj ha.1 hb.1 h.1, encG_inj ha.2 hb.2 h.2⟩
  | .sel x y, b, ha, hb, h => by
      cases b <;> simp [encG] at h ⊢
      exact ⟨encG_inj ha.1 hb.1 h.1, encG_inj ha.2 hb.2 h.2⟩

theorem ofBool_inj {a b : Bool} (h : ofBool a = ofBool b) : a = b := by
  cases a <;> cases b <;> simp [ofBool] at h ⊢

theorem encG_head (e : GExp) : ∃ l, encG e = K .user_rule_of_grammar l := by cases e <;> exact ⟨_, rfl⟩

theorem encMsg_head (m : Msg) : ∃ n l, encMsg m = K n l ∧ n ≠ .mpl_char_ ∧ n ≠ .mpl_int_ ∧ n ≠ .mpl_bool_ ∧ n ≠ .impl_void_ ∧
    n ≠ .t_void ∧ n ≠ .mpl_vector ∧ n ≠ .string ∧ n ≠ .user_rule_of_grammar ∧ n ≠ .user_value ∧ n ≠ .user_flip ∧
    n ≠ .user_delayed ∧ n ≠ .user_bad ∧ n ≠ .grammar_util_repeated_apply_impl := by
  cases m <;> exact ⟨_, _, rfl, by decide⟩

theorem encUser_ne {n : Nat} {l : List V} {m : Id} {k : List V} (h : m ≠ .user_value)
    (h' : m ≠ .grammar_util_repeated_apply_impl) : encUser n l ≠ K m k := by
  unfold encUser
  split <;> simp <;> intro e <;> first | exact absurd e.symm h | exact absurd e.symm h'

theorem encUser_inj {n n' : Nat} {l l' : List V} (h : encUser n l = encUser n' l') : n = n' ∧ l = l' := by
  revert h
  unfold encUser
  split <;> split <;> simp (config := { contextual := true })
  intro h _
  exact Int.ofNat.inj h

mutual
theorem encVal_inj : {a b : Val} → NoBad a → Legible a → Legible b → encVal a = encVal b → a = b
  | .chr c, b, _, pa, pb, h => by
      cases b with
      | msg m => obtain ⟨n, l, e, hn⟩ := encMsg_head m; simp [encVal, e, hn, hn.1.symm] at h
      | gexp e => obtain ⟨l, e'⟩ := encG_head e; simp [encVal, e'] at h
      | user k l => simp only [encVal, encStr] at h; exact absurd h.symm (encUser_ne (by decide) (by decide))
      | str l' => simp [encVal, encStr_good (show GoodStr l' from pb)] at h
      | _ => simp [encVal, encStr] at h ⊢ <;> exact h
  | .int c, b, _, pa, pb, h => by
      cases b with
      | msg m => obtain ⟨n, l, e, hn⟩ := encMsg_head m; simp [encVal, e, hn, hn.2.1.symm] at h
      | gexp e => obtain ⟨l, e'⟩ := encG_head e; simp [encVal, e'] at h
      | user k l => simp only [encVal, encStr] at h; exact absurd h.symm (encUser_ne (by decide) (by decide))
      | str l' => simp [encVal, encStr_good (show GoodStr l' from pb)] at h
      | _ => simp [encVal, encStr] at h ⊢ <;> exact h
  | .bool c, b, _, pa, pb, h => by
      cases b with
      | msg m => obtain ⟨n, l, e, hn⟩ := encMsg_head m; simp [encVal, e, hn, hn.2.2.1.symm] at h
      | gexp e => obtain ⟨l, e'⟩ := encG_head e; simp [encVal, e'] at h
      | user k l => simp only [encVal, encStr] at h; exact absurd h.symm (encUser_ne (by decide) (by decide))
      | str l' => simp [encVal, encStr_good (show GoodStr l' from pb)] at h
      | _ => simp [encVal, encStr] at h ⊢ <;> exact ofBool_inj h
  | .void_, b, _, pa, pb, h => by
      cases b with
      | msg m => obtain ⟨n, l, e, hn⟩ := encMsg_head m; simp [encVal, e] at h; exact absurd h.1.symm hn.2.2.2.1
      | gexp e => obtain ⟨l, e'⟩ := encG_head e; simp [encVal, e'] at h
      | user k l => simp only [encVal, encStr] at h; exact absurd h.symm (encUser_ne (by decide) (by decide))
      | str l' => simp [encVal, encStr_good (show GoodStr l' from pb)] at h
      | _ => simp [encVal, encStr] at h ⊢
  | .cvoid, b, _, pa, pb, h => by
      cases b with
      | msg m => obtain ⟨n, l, e, hn⟩ := encMsg_head m; simp [encVal, e] at h; exact absurd h.1.symm hn.2.2.2.2.1
      | gexp e => obtain ⟨l, e'⟩ := encG_head e; simp [encVal, e'] at h
      | user k l => simp only [encVal, encStr] at h; exact absurd h.symm (encUser_ne (by decide) (by decide))
      | str l' => simp [encVal, encStr_good (show GoodStr l' from pb)] at h
      | _ => simp [encVal, encStr] at h ⊢
  | .seq l, b, hb, pa, pb, h => by
      cases b with
      | msg m => obtain ⟨n, l, e, hn⟩ := encMsg_head m; simp [encVal, e] at h; exact absurd h.1.symm hn.2.2.2.2.2.1
      | gexp e => obtain ⟨l, e'⟩ := encG_head e; simp [encVal, e'] at h
      | seq l' => simp [encVal] at h; rw [encVals_inj hb pa pb h]
      | user k l => simp only [encVal, encStr] at h; exact absurd h.symm (encUser_ne (by decide) (by decide))
      | str l' => simp [encVal, encStr_good (show GoodStr l' from pb)] at h
      | _ => simp [encVal, encStr] at h ⊢
  | .str l, b, hb, pa, pb, h => by
      cases b with
      | msg m => obtain ⟨n, k, e, hn⟩ := encMsg_head m; simp [encVal, e, encStr_good (show GoodStr l from pa)] at h; exact absurd h.1.symm hn.2.2.2.2.2.2.1
      | gexp e => obtain ⟨k, e'⟩ := encG_head e; simp [encVal, e', encStr_good (show GoodStr l from pa)] at h
      | str l' => simp only [encVal] at h; rw [encStr_inj pa pb h]
      | user k l' => simp only [encVal, encStr_good (show GoodStr l from pa)] at h; exact absurd h.symm (encUser_ne (by decide) (by decide))
      | _ => simp [encVal, encStr_good (show GoodStr l from pa)] at h ⊢
  | .msg m, b, hb, pa, pb, h => by
      obtain ⟨n, l, e, h1, h2, h3, h4, h5, h6, h7, h8, h9, h10, h11, h12, h13⟩ := encMsg_head m
      cases b with
      | msg m' => simp only [encVal] at h; rw [encMsg_inj h]
      | gexp e => obtain ⟨l, e'⟩ := encG_head e; simp_all [encVal]
      | user k l => simp only [encVal, e] at h; exact absurd h.symm (encUser_ne h9 h13)
      | str l' => simp_all [encVal, encStr_good (show GoodStr l' from pb)]
      | _ => simp_all [encVal, encStr]
  | .gexp e, b, hb, pa, pb, h => by
      obtain ⟨l, e'⟩ := encG_head e
      cases b with
      | msg m =>
          obtain ⟨n, l, e, h1, h2, h3, h4, h5, h6, h7, h8, h9, h10, h11, h12, h13⟩ := encMsg_head m
          simp only [encVal, e, e', V.cls.injEq] at h
          exact absurd h.2.1.symm h8
      | gexp e2 => simp only [encVal] at h; rw [encG_inj pa pb h]
      | user k l => simp only [encVal, e'] at h; exact absurd h.symm (encUser_ne (by decide) (by decide))
      | str l' => simp_all [encVal, encStr_good (show GoodStr l' from pb)]
      | _ => simp_all [encVal, encStr]
  | .user k l, b, hb, pa, pb, h => by
      cases b with
      | msg m =>
          obtain ⟨n, l, e, h1, h2, h3, h4, h5, h6, h7, h8, h9, h10, h11, h12, h13⟩ := encMsg_head m
          simp only [encVal, e] at h
          exact absurd h (encUser_ne h9 h13)
      | gexp e => obtain ⟨l, e'⟩ := encG_head e; simp only [encVal, e'] at h; exact absurd h (encUser_ne (by decide) (by decide))
      | user k' l' =>
          simp only [encVal] at h
          have h' := encUser_inj h
          rw [h'.1, encVals_inj hb pa pb h'.2]
      | str l' => simp only [encVal, encStr_good (show GoodStr l' from pb)] at h; exact absurd h (encUser_ne (by decide) (by decide))
      | _ => simp only [encVal, encStr] at h; exact absurd h (encUser_ne (by decide) (by decide))
  | .flip k x y, b, hb, pa, pb, h => by
      cases b with
      | msg m =>
          obtain ⟨n, l, e, h1, h2, h3, h4, h5, h6, h7, h8, h9, h10, h11, h12, h13⟩ := encMsg_head m
          simp only [encVal, e, V.cls.injEq] at h
          exact absurd h.2.1.symm h10
      | gexp e => obtain ⟨l, e'⟩ := encG_head e; simp [encVal, e'] at h
      | flip k' x' y' =>
          simp only [encVal, V.cls.injEq, List.cons.injEq, V.num.injEq, true_and, and_true] at h
          rw [encVal_inj hb.1 pa.1 pb.1 h.2.1, encVal_inj hb.2 pa.2 pb.2 h.2.2, Int.ofNat.inj h.1]
      | user k l => simp only [encVal, encStr] at h; exact absurd h.symm (encUser_ne (by decide) (by decide))
      | str l' => simp [encVal, encStr_good (show GoodStr l' from pb)] at h
      | _ => simp [encVal, encStr] at h ⊢
  | .delayed v, b, hb, pa, pb, h => by
      cases b with
      | msg m =>
          obtain ⟨n, l, e, h1, h2, h3, h4, h5, h6, h7, h8, h9, h10, h11, h12, h13⟩ := encMsg_head m
          simp only [encVal, e, V.cls.injEq] at h
          exact absurd h.2.1.symm h11
      | gexp e => obtain ⟨l, e'⟩ := encG_head e; simp [encVal, e'] at h
      | delayed v' =>
          simp only [encVal, V.cls.injEq, List.cons.injEq, V.num.injEq, true_and, and_true] at h
          rw [encVal_inj (a := v) (b := v') hb pa pb h]
      | user k l => simp only [encVal, encStr] at h; exact absurd h.symm (encUser_ne (by decide) (by decide))
      | str l' => simp [encVal, encStr_good (show GoodStr l' from pb)] at h
      | _ => simp [encVal, encStr] at h ⊢
  | .bad _, _, hb, _, _, _ => hb.elim
theorem encVals_inj : {a b : List Val} → NoBads a → Legibles a → Legibles b → encVals a = encVals b → a = b
  | [], [], _, _, _, _ => rfl
  | [], _ :: _, _, _, _, h => by simp [encVals] at h
  | _ :: _, [], _, _, _, h => by simp [encVals] at h
  | a :: as, b :: bs, hb, pa, pb, h => by
      simp only [encVals, List.cons.injEq] at h
      rw [encVal_inj hb.1 pa.1 pb.1 h.1, encVals_inj hb.2 pa.2 pb.2 h.2]
end

theorem encPos_inj {a b : Pos} (h : encPos a = encPos b) : a = b := by
  cases a; cases b
  simp only [encPos, V.cls.injEq, List.cons.injEq, V.num.injEq, true_and, and_true] at h
  simp [h]

theorem encRes_inj {I : Type} [Inputs I] (hi : ∀ s t : I, encInp s = encInp t → s = t) {a b : Res I}
    (ha : ∀ v s p, a = .acc v s p → NoBad v ∧ Legible v) (hb : ∀ v s p, b = .acc v s p → Legible v) (h : encRes a = encRes b) :
    a = b := by
  cases a with
  | acc v s p =>
      cases b with
      | acc v' s' p' =>
          simp only [encRes, V.cls.injEq, List.cons.injEq, true_and, and_true] at h
          rw [encVal_inj (ha _ _ _ rfl).1 (ha _ _ _ rfl).2 (hb _ _ _ rfl) h.1, hi _ _ h.2.1, encPos_inj h.2.2]
      | rej m p => simp [encRes] at h
  | rej m p =>
      cases b with
      | acc v' s' p' => simp [encRes] at h
      | rej m p =>
          simp only [encRes, V.cls.injEq, List.cons.injEq, true_and, and_true] at h
          rw [encMsg_inj h.1, encPos_inj h.2]

end Metaparse.Tmpl
