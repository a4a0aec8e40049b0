import Verif.Lemmas.Chains
/-!
# The operations and the tokens of the tutorial
-/

namespace Metaparse

variable {E : Env (List Chr)}

namespace Env.Tutorial

theorem nth3 (h : E.Tutorial) : E.SupportsNth 3 := h.limSequence
theorem nth2 (h : E.Tutorial) : E.SupportsNth 2 := fun e => Nat.lt_trans (by decide) (h.nth3 e)
theorem seq3 (h : E.Tutorial) : E.SupportsSequence 3 := fun e => ⟨Nat.lt_trans (by decide) (h.nth3 e), h.nth3 e⟩
theorem seq2 (h : E.Tutorial) : E.SupportsSequence 2 :=
  fun e => ⟨Nat.lt_trans (by decide) (h.nth2 e), h.nth2 e⟩
theorem oneOf3 (h : E.Tutorial) : E.SupportsOneOf 3 := h.limOneOf
theorem oneOf2 (h : E.Tutorial) : E.SupportsOneOf 2 := fun e => Nat.le_trans (by decide) (h.oneOf3 e)

end Env.Tutorial

/-! ## Operators -/

/-- Tokens of single characters as alternatives. -/
theorem readsOp_oneOf (hE : E.OnText) (hs : E.SupportsNth 2) (cs : List Chr)
    (hn : E.SupportsOneOf cs.length) :
    ReadsOp E (.oneOf (cs.map fun c => .token (.litC c))) cs where
  accepts := by
    intro c ws s' pos hc h2 h3
    obtain ⟨b, a, rfl, hb⟩ := List.eq_append_cons_of_mem hc
    obtain ⟨pos', ha⟩ := (readsOp_token hE hs c).accepts (c := c) (ws := ws) (s' := s') pos (by simp) h2 h3
    refine ⟨pos', (C19_oneOf_accepts _ (by simpa using hn) ..).2 ⟨?_, b.map _, _, a.map _,
      by rw [List.map_append, List.map_cons], ?_, ha⟩⟩
    · intro r hr
      obtain ⟨d, -, rfl⟩ := List.mem_map.1 hr
      exact (readsOp_token hE hs d).finishes pos h2 h3
    · intro r hr
      obtain ⟨d, hd, rfl⟩ := List.mem_map.1 hr
      obtain ⟨m, hr⟩ := (readsOp_token hE hs d).rejects (s := c :: (ws ++ s')) pos (by
        simp only [beginsWith, List.contains_cons, List.contains_nil, Bool.or_false, beq_eq_false_iff_ne]
        rintro rfl
        exact hb hd)
      exact ⟨_, _, hr⟩
  sound := by
    intro s pos v s' pos' ha
    obtain ⟨-, b, r, a, hl, -, hr⟩ := (C19_oneOf_accepts _ (by simpa using hn) ..).1 ha
    have hm : r ∈ cs.map fun c => .token (.litC c) := by rw [hl]; simp
    obtain ⟨c, hc, rfl⟩ := List.mem_map.1 hm
    obtain ⟨c', hc', h⟩ := (readsOp_token hE hs c).sound hr
    rw [List.mem_singleton] at hc'
    subst hc'
    exact ⟨c', hc, h⟩
  rejects := by
    intro s pos hb
    have hall : ∀ c ∈ cs, ∃ m, Rejects E (.token (.litC c)) s pos m pos := by
      intro c hc
      refine (readsOp_token hE hs c).rejects pos (beginsWith_mono (fun d hd => ?_) hb)
      simp only [List.contains_cons, List.contains_nil, Bool.or_false, beq_iff_eq] at hd
      subst hd
      simpa using hc
    obtain ⟨m, e, hr⟩ := (C20_oneOf_rejects_iff (E := E) (cs.map fun c => .token (.litC c))
      (by simpa using hn) s pos).2 (by
      intro r hr
      obtain ⟨c, hc, rfl⟩ := List.mem_map.1 hr
      obtain ⟨m, hr⟩ := hall c hc
      exact ⟨_, _, hr⟩)
    rcases (C20_oneOf_furthest _ _ _ _ _ hr).reached with rfl | ⟨r, hm, m', hr'⟩
    · exact ⟨m, hr⟩
    · obtain ⟨c, hc, rfl⟩ := List.mem_map.1 hm
      obtain ⟨m1, hr1⟩ := hall c hc
      obtain ⟨-, rfl⟩ := hr'.unique hr1; exact ⟨m, hr⟩

theorem Env.Tutorial.plus (h : E.Tutorial) : ReadsOp E Tutorial.plusToken [ch '+'] :=
  readsOp_token h.onText h.nth2 _

theorem Env.Tutorial.minus (h : E.Tutorial) : ReadsOp E Tutorial.minusToken [ch '-'] :=
  readsOp_token h.onText h.nth2 _

theorem Env.Tutorial.plusOps (h : E.Tutorial) :
    ReadsOp E (.oneOf [Tutorial.plusToken, Tutorial.minusToken]) [ch '+', ch '-'] :=
  readsOp_oneOf h.onText h.nth2 [ch '+', ch '-'] h.oneOf2

theorem Env.Tutorial.multOps (h : E.Tutorial) :
    ReadsOp E (.oneOf [Tutorial.timesToken, Tutorial.dividesToken]) [ch '*', ch '/'] :=
  readsOp_oneOf h.onText h.nth2 [ch '*', ch '/'] h.oneOf2

theorem Env.Tutorial.flatOps (h : E.Tutorial) :
    ReadsOp E (.oneOf [Tutorial.plusToken, Tutorial.minusToken, Tutorial.timesToken])
      [ch '+', ch '-', ch '*'] :=
  readsOp_oneOf h.onText h.nth2 [ch '+', ch '-', ch '*'] h.oneOf3

/-! ## Operations -/

theorem sumItems_force (x k : Int) (c : Chr) :
    (Tutorial.sumItems (.int x) (.seq [.chr c, .int k])).force = ofOption .overflow (fits (x + k)) := by
  refine Eq.trans ?_ (force_ofOption _ _)
  rw [← intC_bind]
  rfl

theorem binaryOp_force {x k : Int} {c : Chr} (hc : c ∈ [ch '+', ch '-', ch '*']) :
    (Tutorial.binaryOp (.int x) (.seq [.chr c, .int k])).force = ofOption .overflow (applyOp x c k) := by
  refine Eq.trans ?_ (force_ofOption _ _)
  simp only [List.mem_cons, List.not_mem_nil, or_false] at hc
  rcases hc with rfl | rfl | rfl
  · have : applyOp x (ch '+') k = fits (x + k) := rfl
    rw [this, ← intC_bind]; rfl
  · have : applyOp x (ch '-') k = fits (x - k) := rfl
    rw [this, ← intC_bind]; rfl
  · have : applyOp x (ch '*') k = fits (x * k) := rfl
    rw [this, ← intC_bind]; rfl

theorem NumberText.nonneg {t : List Chr} {n : Int} (h : NumberText t n) : 0 ≤ n := by
  obtain ⟨w, ws, rfl, -, hw, -, rfl⟩ := h
  exact decimal_nonneg hw

theorem ItemsText.nonneg {ops r : List Chr} {items : List (Chr × Int)} (h : ItemsText ops r items) :
    ∀ i ∈ items, 0 ≤ i.2 := by
  induction h with
  | nil => simp
  | cons _ _ hu _ ih =>
    intro i hi
    rcases List.mem_cons.1 hi with rfl | hi
    · exact hu.nonneg
    · exact ih i hi

theorem ChainText.nonneg {ops t : List Chr} {n : Int} {items : List (Chr × Int)}
    (h : ChainText ops t n items) : 0 ≤ n ∧ ∀ i ∈ items, 0 ≤ i.2 := by
  obtain ⟨u, r, rfl, hu, hr⟩ := chainText_iff.1 h
  exact ⟨hu.nonneg, hr.nonneg⟩

theorem ChainText.mem {ops t : List Chr} {n : Int} {items : List (Chr × Int)}
    (h : ChainText ops t n items) : ∀ i ∈ items, i.1 ∈ ops := by
  induction h with
  | one => simp
  | more _ hc _ _ ih =>
    intro i hi
    rcases List.mem_append.1 hi with hi | hi
    · exact ih i hi
    · rw [List.mem_singleton.1 hi]; exact hc

theorem itemSum_nonneg {items : List (Chr × Int)} (h : ∀ i ∈ items, 0 ≤ i.2) : 0 ≤ itemSum items := by
  induction items with
  | nil => exact Int.le_refl _
  | cons i items ih =>
    have h1 := h i (by simp)
    have h2 := ih fun j hj => h j (by simp [hj])
    simp only [itemSum, List.map_cons, List.sum_cons] at h2 ⊢
    omega

theorem le_itemSum {items : List (Chr × Int)} (h : ∀ i ∈ items, 0 ≤ i.2) {i : Chr × Int} (hi : i ∈ items) :
    i.2 ≤ itemSum items := by
  induction items with
  | nil => cases hi
  | cons j items ih =>
    have h1 := h j (by simp)
    have h2 := itemSum_nonneg (items := items) fun j hj => h j (by simp [hj])
    rcases List.mem_cons.1 hi with rfl | hi
    · simp only [itemSum, List.map_cons, List.sum_cons] at h2 ⊢
      omega
    · have h3 := ih (fun j hj => h j (by simp [hj])) hi
      simp only [itemSum, List.map_cons, List.sum_cons] at h2 h3 ⊢
      omega

/-- Adding up numbers that are not negative: an intermediate value fits if the sum does. -/
theorem leftFold_sumItems {items : List (Chr × Int)} (h : ∀ i ∈ items, 0 ≤ i.2) : ∀ {x : Int}, 0 ≤ x →
    x ≤ 2147483647 → ∀ v, leftFold Tutorial.sumItems (.int x) (itemVals items) = .ok v ↔
      v = .int (x + itemSum items) ∧ x + itemSum items ≤ 2147483647 := by
  induction items with
  | nil =>
    intro x h0 h1 v
    simp [itemVals, leftFold, itemSum, h1, eq_comm]
  | cons i items ih =>
    intro x h0 h1 v
    have hi := h i (by simp)
    have hi' : ∀ j ∈ items, 0 ≤ j.2 := fun j hj => h j (by simp [hj])
    have hs := itemSum_nonneg hi'
    have he : itemSum (i :: items) = i.2 + itemSum items := by simp [itemSum]
    show ((Tutorial.sumItems (.int x) (.seq [.chr i.1, .int i.2])).force.bind fun y =>
      leftFold Tutorial.sumItems y (itemVals items)) = .ok v ↔ _
    rw [sumItems_force, he]
    by_cases hf : x + i.2 ≤ 2147483647
    · rw [fits_eq_some.2 ⟨rfl, by omega, hf⟩]
      show leftFold Tutorial.sumItems (.int (x + i.2)) (itemVals items) = .ok v ↔ _
      rw [ih hi' (by omega) hf, Int.add_assoc]
    · have : fits (x + i.2) = none := by
        unfold fits; rw [if_neg (by omega)]
      rw [this]
      constructor
      · intro h; cases h
      · rintro ⟨-, h⟩; omega

theorem leftFold_binaryOp {items : List (Chr × Int)} (h : ∀ i ∈ items, i.1 ∈ [ch '+', ch '-', ch '*'])
    (hf : ∀ i ∈ items, fits i.2 = some i.2) (x : Int) :
    leftFold Tutorial.binaryOp (.int x) (itemVals items) = ofOption .overflow
      (items.foldlM (fun x i => (fits i.2).bind fun y => applyOp x i.1 y) x) := by
  induction items generalizing x with
  | nil => rfl
  | cons i items ih =>
    show ((Tutorial.binaryOp (.int x) (.seq [.chr i.1, .int i.2])).force.bind fun y =>
      leftFold Tutorial.binaryOp y (itemVals items)) = _
    rw [binaryOp_force (h i (by simp)), List.foldlM_cons, hf i (by simp)]
    show _ = ofOption .overflow ((applyOp x i.1 i.2).bind _)
    cases applyOp x i.1 i.2 with
    | none => rfl
    | some y => exact ih (fun j hj => h j (by simp [hj])) (fun j hj => hf j (by simp [hj])) y

end Metaparse
