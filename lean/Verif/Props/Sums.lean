import Verif.Lemmas.GettingStarted
import Verif.Lemmas.Finish
/-!
# The sums of the tutorial (C67)
-/

namespace Metaparse

variable {E : Env (List Chr)}

/-! ## Numbers -/

/-- `exp_parser1` reads the digits at the beginning and ignores the rest; `exp_parser2` needs digits only;
`exp_parser3` allows white space after them. -/
theorem C67_numbers (h : E.Tutorial) (s : List Chr) (v : Val) :
    (Tutorial.expParser1 E s = .ok v ↔ ∃ w rest, s = w ++ rest ∧ w ≠ [] ∧ (∀ c ∈ w, digitChar c = true) ∧
      beginsWith digitChar rest = false ∧ decimal w ≤ 2147483647 ∧ v = .int (decimal w)) ∧
    (Tutorial.expParser2 E s = .ok v ↔ s ≠ [] ∧ (∀ c ∈ s, digitChar c = true) ∧
      decimal s ≤ 2147483647 ∧ v = .int (decimal s)) ∧
    (Tutorial.expParser3 E s = .ok v ↔ ∃ n, NumberText s n ∧ n ≤ 2147483647 ∧ v = .int n) := by
  refine ⟨?_, ?_, ?_⟩
  · refine (C34_buildParser_accepts ..).trans ?_
    constructor
    · rintro ⟨s', pos', ha⟩
      obtain ⟨w, rfl, h1, h2, h3, rfl, h4, -⟩ := (C30_int_accepts h.onText ..).1 ha
      exact ⟨w, s', rfl, h1, h2, h3, h4, rfl⟩
    · rintro ⟨w, s', rfl, h1, h2, h3, h4, rfl⟩
      exact ⟨s', _, (C30_int_accepts h.onText ..).2 ⟨w, rfl, h1, h2, h3, rfl, h4, rfl⟩⟩
  · refine (C34_buildParser_accepts ..).trans ?_
    constructor
    · rintro ⟨s', pos', ha⟩
      obtain ⟨ha', rfl⟩ := (C33_entireInput_accepts h.onText h.nth2 ..).1 ha
      obtain ⟨w, rfl, h1, h2, h3, rfl, h4, -⟩ := (C30_int_accepts h.onText ..).1 ha'
      rw [List.append_nil]
      exact ⟨h1, h2, h4, rfl⟩
    · rintro ⟨h1, h2, h4, rfl⟩
      exact ⟨[], _, (C33_entireInput_accepts h.onText h.nth2 ..).2
        ⟨(C30_int_accepts h.onText ..).2 ⟨s, by simp, h1, h2, rfl, rfl, h4, rfl⟩, rfl⟩⟩
  · refine (C34_buildParser_accepts ..).trans ?_
    constructor
    · rintro ⟨s', pos', ha⟩
      obtain ⟨ha', rfl⟩ := (C33_entireInput_accepts h.onText h.nth2 ..).1 ha
      obtain ⟨t, n, ht, hn, rfl⟩ := takes_of_accepts h.onText h.nth2 ha'
      obtain ⟨rfl, ht'⟩ := ht.number
      rw [List.append_nil]
      exact ⟨n, ht', hn, rfl⟩
    · rintro ⟨n, ⟨w, ws, rfl, h1, h2, h3, rfl⟩, hn, rfl⟩
      have ht : TakesNumber (w ++ ws) (w ++ ws) (decimal w) [] := by
        refine ⟨w, ws, rfl, by simp, h1, h2, h3, rfl, ?_, rfl⟩
        rw [List.append_nil]
        cases ws with
        | nil => rfl
        | cons c ws => exact digit_not_space (h3 c (by simp))
      obtain ⟨pos', ha⟩ := ht.accepts h.onText h.nth2 hn start
      exact ⟨[], pos', (C33_entireInput_accepts h.onText h.nth2 ..).2 ⟨ha, rfl⟩⟩

/-! ## Two numbers -/

theorem two_iff (h : E.Tutorial) (s : List Chr) (v : Val) :
    (∃ s' pos', Accepts E (.sequence [Tutorial.intToken, Tutorial.plusToken, Tutorial.intToken]) s start v s'
      pos') ↔ ∃ t n k, LongestPrefix IsSumOfTwo s t ∧ ChainText [ch '+'] t n [(ch '+', k)] ∧
        n ≤ 2147483647 ∧ k ≤ 2147483647 ∧ v = .seq [.int n, .chr (ch '+'), .int k] := by
  have hops : NotInNumbers [ch '+'] := by decide
  have longest : ∀ {s t s0 ws s1 u s2 n k}, TakesNumber s t n s0 → s0 = ch '+' :: (ws ++ s1) → AllSpace ws →
      TakesNumber s1 u k s2 → ∀ {x n' k'}, ChainText [ch '+'] x n' [(ch '+', k')] → x <+: s →
        x <+: t ++ ch '+' :: (ws ++ u) := by
    intro s t s0 ws s1 u s2 n k ht hs0 hws hu x n' k' hx hp
    obtain ⟨u0, r, rfl, hu0, hr⟩ := chainText_iff.1 hx
    obtain ⟨hs, hin⟩ := ht.number
    have hp0 := ht.longest hu0 ((List.prefix_append _ _).trans hp)
    rw [hs] at hp
    rcases number_then_items hops hin hr hp0 hp with rfl | ⟨rfl, hp2⟩
    · cases hr
    · rw [List.prefix_append_right_inj]
      subst hs0
      cases hr with
      | @cons c' ws' u' r' _ _ _ hws' hu' hr' =>
        cases hr'
        obtain ⟨y, hy⟩ := hp2
        simp only [List.append_nil, List.cons_append, List.cons.injEq, true_and, List.append_assoc] at hy
        obtain ⟨rfl, hy'⟩ := spaces_unique hws' hws
          (by rw [beginsWith_append hu'.begins.2.2]; exact hu'.begins.2.1) hu.noSpace hy
        rw [List.append_nil, List.prefix_cons_inj, List.prefix_append_right_inj]
        exact hu.longest hu' ⟨y, hy'⟩
  constructor
  · rintro ⟨s', pos', ha⟩
    obtain ⟨vs, hi, rfl⟩ := (C22_sequence_accepts _ h.seq3 ..).1 ha
    obtain ⟨a, b, c, s0, pos0, s1, pos1, rfl, h1, h2, h3⟩ := hi.three
    obtain ⟨t, n, ht, hn, rfl⟩ := takes_of_accepts h.onText h.nth2 h1
    obtain ⟨d, hd, ws, rfl, hws, -, rfl⟩ := h.plus.sound h2
    obtain ⟨u, k, hu, hk, rfl⟩ := takes_of_accepts h.onText h.nth2 h3
    obtain rfl := List.mem_singleton.1 hd
    have hc : ChainText [ch '+'] (t ++ ch '+' :: (ws ++ u)) n ([] ++ [(ch '+', k)]) :=
      .more (.one ht.number.2) (by simp) hws hu.number.2
    refine ⟨_, n, k, ⟨?_, ⟨n, k, hc⟩, ?_⟩, hc, hn, hk, rfl⟩
    · rw [ht.number.1, hu.number.1]; exact ⟨s', by simp⟩
    · rintro x hp ⟨n', k', hx⟩
      exact (longest ht rfl hws hu hx hp).length_le
  · rintro ⟨x, n, k, ⟨hp, -, hmax⟩, hx, hn, hk, rfl⟩
    obtain ⟨u0, r, rfl, hu0, hr⟩ := chainText_iff.1 hx
    cases hr with
    | @cons c' ws u r' _ _ _ hws hu hr' =>
      cases hr'
      obtain ⟨y, rfl⟩ := hp
      rw [List.append_nil] at *
      have hb0 := hu0.begins
      have hb := hu.begins
      -- the first number ends before the plus sign
      have ht0 : TakesNumber (u0 ++ ch '+' :: (ws ++ u) ++ y) u0 n (ch '+' :: (ws ++ u ++ y)) := by
        obtain ⟨w, ws0, rfl, h1, h2, h3, rfl⟩ := hu0
        refine ⟨w, ws0, rfl, by simp, h1, h2, h3, rfl, ?_, rfl⟩
        cases ws0 with
        | nil => rfl
        | cons c ws0 => exact digit_not_space (h3 c (by simp))
      obtain ⟨t, j, s2, ht⟩ := TakesNumber.exists (s := u ++ y)
        (by rw [beginsWith_append hb.2.2]; exact hb.1)
      have hle := ht.longest hu ⟨y, rfl⟩
      have hc : ChainText [ch '+'] (u0 ++ ch '+' :: (ws ++ t)) n ([] ++ [(ch '+', j)]) :=
        .more (.one hu0) (by simp) hws ht.number.2
      have hlen := hmax _ (by
        rw [List.append_assoc, List.prefix_append_right_inj, List.cons_append, List.prefix_cons_inj,
          List.append_assoc, List.prefix_append_right_inj, ht.number.1]
        exact List.prefix_append _ _) ⟨n, j, hc⟩
      simp only [List.length_append, List.length_cons] at hlen
      obtain rfl := hle.eq_of_length_le (by omega)
      obtain rfl := number_unique hu ht.number.2
      obtain ⟨pos1, a1⟩ := ht0.accepts h.onText h.nth2 hn start
      obtain ⟨pos2, a2⟩ := h.plus.accepts (c := ch '+') (ws := ws) (s' := u ++ y) pos1 (by simp) hws ht.noSpace
      obtain ⟨pos3, a3⟩ := ht.accepts h.onText h.nth2 hk pos2
      rw [List.append_assoc ws] at a1
      exact ⟨s2, pos3, (C22_sequence_accepts _ h.seq3 ..).2 ⟨_, .cons a1 (.cons a2 (.cons a3 (.nil ..))), rfl⟩⟩

/-- `exp_parser4` and `exp_parser5` give the two numbers and the plus sign of the longest text
"number + number" at the beginning; `exp_parser6` adds them. -/
theorem C67_two_numbers (h : E.Tutorial) (s : List Chr) (v : Val) :
    (Tutorial.expParser5 E s = .ok v ↔ ∃ t n k, LongestPrefix IsSumOfTwo s t ∧
      ChainText [ch '+'] t n [(ch '+', k)] ∧ n ≤ 2147483647 ∧ k ≤ 2147483647 ∧
      v = .seq [.int n, .chr (ch '+'), .int k]) ∧
    Tutorial.expParser4 E s = Tutorial.expParser5 E s ∧
    (Tutorial.expParser6 E s = .ok v ↔ ∃ t n k, LongestPrefix IsSumOfTwo s t ∧
      ChainText [ch '+'] t n [(ch '+', k)] ∧ n + k ≤ 2147483647 ∧ v = .int (n + k)) := by
  refine ⟨(C34_buildParser_accepts ..).trans (two_iff h s v), rfl, (C34_buildParser_accepts ..).trans ?_⟩
  have hval : ∀ n k : Int, (Tutorial.evalPlus (.seq [.int n, .chr (ch '+'), .int k])).force
      = ofOption .overflow (fits (n + k)) := by
    intro n k
    refine Eq.trans ?_ (force_ofOption _ _)
    rw [← intC_bind]
    rfl
  constructor
  · rintro ⟨s', pos', ha⟩
    obtain ⟨w, ha, hv⟩ := (C36_transform_accepts ..).1 ha
    obtain ⟨t, n, k, h1, h2, h3, h4, rfl⟩ := (two_iff h s w).1 ⟨s', pos', ha⟩
    rw [hval, ofOption_eq_ok] at hv
    obtain ⟨x, hx, rfl⟩ := hv
    obtain ⟨rfl, -, hle⟩ := fits_eq_some.1 hx
    exact ⟨t, n, k, h1, h2, hle, rfl⟩
  · rintro ⟨t, n, k, h1, h2, h3, rfl⟩
    have h0 := h2.nonneg
    have h0' : 0 ≤ k := h0.2 (ch '+', k) (by simp)
    obtain ⟨s', pos', ha⟩ := (two_iff h s _).2 ⟨t, n, k, h1, h2, by omega, by omega, rfl⟩
    refine ⟨s', pos', (C36_transform_accepts ..).2 ⟨_, ha, ?_⟩⟩
    rw [hval, fits_eq_some.2 ⟨rfl, by omega, h3⟩]
    rfl

/-! ## Any number of numbers -/

theorem items_of_repeated (h : E.Tutorial) {o : P} {ops : List Chr} (ho : ReadsOp E o ops)
    (hops : NotInNumbers ops) (s : List Chr) (v : Val) (q : P) (r : List Val → Out Val)
    (hq : ∀ {s pos w s' pos'}, Accepts E q s pos w s' pos' ↔ ∃ vs m e,
      MaximalRun E (.sequence [o, Tutorial.intToken]) s pos vs s' pos' m e ∧ r vs = .ok w) :
    (∃ s' pos', Accepts E (.sequence [Tutorial.intToken, q]) s start v s' pos') ↔
      ∃ t n items w, LongestPrefix (IsChain ops) s t ∧ ChainText ops t n items ∧ ItemsFit n items ∧
        r (itemVals items) = .ok w ∧ v = .seq [.int n, w] := by
  constructor
  · rintro ⟨s', pos', ha⟩
    obtain ⟨vs, hi, rfl⟩ := (C22_sequence_accepts _ h.seq2 ..).1 ha
    obtain ⟨a, b, s0, pos0, rfl, h1, h2⟩ := hi.two
    obtain ⟨vs, m, e, hm, hr⟩ := hq.1 h2
    obtain ⟨t, n, items, h3, h4, h5, rfl, rfl⟩ := (chain_iff h.onText h.nth2 h.seq2 ho hops s start a vs).1
      ⟨_, _, _, _, _, _, h1, hm⟩
    exact ⟨t, n, items, b, h3, h4, h5, hr, rfl⟩
  · rintro ⟨t, n, items, w, h3, h4, h5, hr, rfl⟩
    obtain ⟨s0, pos0, s', pos', m, e, h1, hm⟩ :=
      (chain_iff h.onText h.nth2 h.seq2 ho hops s start _ _).2 ⟨t, n, items, h3, h4, h5, rfl, rfl⟩
    exact ⟨s', pos', (C22_sequence_accepts _ h.seq2 ..).2
      ⟨_, .cons h1 (.cons (hq.2 ⟨_, m, e, hm, hr⟩) (.nil ..)), rfl⟩⟩

/-- `exp_parser7` reads the longest text "number + number + … + number" at the beginning. -/
theorem C67_list (h : E.Tutorial) (s : List Chr) (v : Val) :
    Tutorial.expParser7 E s = .ok v ↔ ∃ t n items, LongestPrefix (IsChain [ch '+']) s t ∧
      ChainText [ch '+'] t n items ∧ ItemsFit n items ∧
      v = .seq [.int n, .seq (items.map fun i => .seq [.chr i.1, .int i.2])] := by
  refine (C34_buildParser_accepts ..).trans ((items_of_repeated h h.plus (by decide) s v _
    (fun vs => .ok (.seq vs)) ?_).trans ?_)
  · intro s pos w s' pos'
    refine (C14_repeated ..).trans ?_
    constructor
    · rintro ⟨vs, m, e, h1, rfl⟩; exact ⟨vs, m, e, h1, rfl⟩
    · rintro ⟨vs, m, e, h1, h2⟩; cases h2; exact ⟨vs, m, e, h1, rfl⟩
  · constructor
    · rintro ⟨t, n, items, w, h1, h2, h3, h4, rfl⟩; cases h4; exact ⟨t, n, items, h1, h2, h3, rfl⟩
    · rintro ⟨t, n, items, h1, h2, h3, rfl⟩; exact ⟨t, n, items, _, h1, h2, h3, rfl, rfl⟩

theorem sumOfItems_force (vs : List Val) (v : Val) :
    (Tutorial.sumOfItems (.seq vs)).force = .ok v ↔ leftFold Tutorial.sumItems (.int 0) vs = .ok v := by
  unfold Tutorial.sumOfItems
  rw [metafunction_force]
  simp only [mplFold_eq]

theorem number_and_sum (h : E.Tutorial) (s : List Chr) (v : Val) (q : P)
    (hq : ∀ {s pos w s' pos'}, Accepts E q s pos w s' pos' ↔ ∃ vs m e,
      MaximalRun E Tutorial.plusItem s pos vs s' pos' m e ∧ leftFold Tutorial.sumItems (.int 0) vs = .ok w) :
    (∃ s' pos', Accepts E (.sequence [Tutorial.intToken, q]) s start v s' pos') ↔
      ∃ t n items, LongestPrefix (IsChain [ch '+']) s t ∧ ChainText [ch '+'] t n items ∧
        n ≤ 2147483647 ∧ itemSum items ≤ 2147483647 ∧ v = .seq [.int n, .int (itemSum items)] := by
  refine (items_of_repeated h h.plus (by decide) s v q _ hq).trans ?_
  constructor
  · rintro ⟨t, n, items, w, h1, h2, h3, h4, rfl⟩
    obtain ⟨rfl, hle⟩ := (leftFold_sumItems h2.nonneg.2 (Int.le_refl 0) (by decide) w).1 h4
    rw [Int.zero_add] at *
    exact ⟨t, n, items, h1, h2, h3.1, hle, rfl⟩
  · rintro ⟨t, n, items, h1, h2, h3, h4, rfl⟩
    refine ⟨t, n, items, _, h1, h2, ⟨h3, fun i hi => ?_⟩,
      (leftFold_sumItems h2.nonneg.2 (Int.le_refl 0) (by decide) _).2
        ⟨by rw [Int.zero_add], by rw [Int.zero_add]; exact h4⟩, rfl⟩
    exact Int.le_trans (le_itemSum h2.nonneg.2 hi) h4

theorem sumOfItems_run {s : List Chr} {pos : Pos} {w : Val} {s' : List Chr} {pos' : Pos} :
    Accepts E (.transform (.repeated Tutorial.plusItem) Tutorial.sumOfItems) s pos w s' pos' ↔ ∃ vs m e,
      MaximalRun E Tutorial.plusItem s pos vs s' pos' m e ∧
        leftFold Tutorial.sumItems (.int 0) vs = .ok w := by
  refine (C36_transform_accepts ..).trans ?_
  constructor
  · rintro ⟨x, h1, h2⟩
    obtain ⟨vs, m, e, hm, rfl⟩ := (C14_repeated ..).1 h1
    exact ⟨vs, m, e, hm, (sumOfItems_force vs w).1 h2⟩
  · rintro ⟨vs, m, e, hm, h2⟩
    exact ⟨_, (C14_repeated ..).2 ⟨vs, m, e, hm, rfl⟩, (sumOfItems_force vs w).2 h2⟩

/-- `exp_parser8` gives the first number and the sum of the others. -/
theorem C67_number_and_sum (h : E.Tutorial) (s : List Chr) (v : Val) :
    Tutorial.expParser8 E s = .ok v ↔ ∃ t n items, LongestPrefix (IsChain [ch '+']) s t ∧
      ChainText [ch '+'] t n items ∧ n ≤ 2147483647 ∧ itemSum items ≤ 2147483647 ∧
      v = .seq [.int n, .int (itemSum items)] :=
  (C34_buildParser_accepts ..).trans (number_and_sum h s v _ sumOfItems_run)

theorem sumVector_force (n k : Int) (v : Val) (hn : 0 ≤ n) (hk : 0 ≤ k) :
    (Tutorial.sumVector (.seq [.int n, .int k])).force = .ok v ↔ n + k ≤ 2147483647 ∧ v = .int (n + k) := by
  unfold Tutorial.sumVector
  rw [metafunction_force]
  have h0 : ∀ x y : Int, (Val.ofOut (Calc.arith (· + ·) (.int x) (.int y))).force
      = ofOption .overflow (fits (x + y)) := by
    intro x y
    refine Eq.trans ?_ (force_ofOption _ _)
    rw [← intC_bind]
    rfl
  show ((Val.ofOut (Calc.arith (· + ·) (.int 0) (.int n))).force.bind fun a =>
    (Val.ofOut (Calc.arith (· + ·) a (.int k))).force.bind fun b => .ok b) = .ok v ↔ _
  rw [h0, Int.zero_add]
  by_cases hf : n ≤ 2147483647
  · rw [fits_eq_some.2 ⟨rfl, by omega, hf⟩]
    show ((Val.ofOut (Calc.arith (· + ·) (.int n) (.int k))).force.bind fun b => .ok b) = .ok v ↔ _
    rw [h0]
    by_cases hf' : n + k ≤ 2147483647
    · rw [fits_eq_some.2 ⟨rfl, by omega, hf'⟩]
      constructor
      · intro h; cases h; exact ⟨hf', rfl⟩
      · rintro ⟨-, rfl⟩; rfl
    · have : fits (n + k) = none := by unfold fits; rw [if_neg (by omega)]
      rw [this]
      constructor
      · intro h; cases h
      · rintro ⟨h, -⟩; omega
  · have : fits n = none := by unfold fits; rw [if_neg (by omega)]
    rw [this]
    constructor
    · intro h; cases h
    · rintro ⟨h, -⟩; omega

theorem sum_of_all (h : E.Tutorial) (s : List Chr) (v : Val) (q : P)
    (hq : ∀ {s pos w s' pos'}, Accepts E q s pos w s' pos' ↔ ∃ vs m e,
      MaximalRun E Tutorial.plusItem s pos vs s' pos' m e ∧ leftFold Tutorial.sumItems (.int 0) vs = .ok w) :
    buildParser E (.transform (.sequence [Tutorial.intToken, q]) Tutorial.sumVector) s = .ok v ↔
      ∃ t n items, LongestPrefix (IsChain [ch '+']) s t ∧ ChainText [ch '+'] t n items ∧
        n + itemSum items ≤ 2147483647 ∧ v = .int (n + itemSum items) := by
  refine (C34_buildParser_accepts ..).trans ?_
  constructor
  · rintro ⟨s', pos', ha⟩
    obtain ⟨w, ha, hw⟩ := (C36_transform_accepts ..).1 ha
    obtain ⟨t, n, items, h1, h2, h3, h4, rfl⟩ := (number_and_sum h s w q hq).1 ⟨s', pos', ha⟩
    obtain ⟨h5, rfl⟩ := (sumVector_force _ _ _ h2.nonneg.1 (itemSum_nonneg h2.nonneg.2)).1 hw
    exact ⟨t, n, items, h1, h2, h5, rfl⟩
  · rintro ⟨t, n, items, h1, h2, h3, rfl⟩
    have a := h2.nonneg.1
    have b := itemSum_nonneg h2.nonneg.2
    obtain ⟨s', pos', ha⟩ := (number_and_sum h s _ q hq).2 ⟨t, n, items, h1, h2, by omega, by omega, rfl⟩
    exact ⟨s', pos', (C36_transform_accepts ..).2 ⟨_, ha, (sumVector_force _ _ _ a b).2 ⟨h3, rfl⟩⟩⟩

/-- `sumItems` in a fold that starts with the first number. -/
theorem sum_from_first (h : E.Tutorial) {o : P} {ops : List Chr} (ho : ReadsOp E o ops)
    (hops : NotInNumbers ops) (s : List Chr) (v : Val) :
    buildParser E (.foldlStartWithParser (.sequence [o, Tutorial.intToken]) Tutorial.intToken
        Tutorial.sumItems) s = .ok v ↔
      ∃ t n items, LongestPrefix (IsChain ops) s t ∧ ChainText ops t n items ∧
        n + itemSum items ≤ 2147483647 ∧ v = .int (n + itemSum items) := by
  refine (C34_buildParser_accepts ..).trans ?_
  constructor
  · rintro ⟨s', pos', ha⟩
    obtain ⟨x, s0, pos0, vs, m, e, x', h1, hm, hx, hf⟩ := (C18_foldl_start_with_parser ..).1 ha
    obtain ⟨t, n, items, h3, h4, h5, rfl, rfl⟩ := (chain_iff h.onText h.nth2 h.seq2 ho hops s start x vs).1
      ⟨_, _, _, _, _, _, h1, hm⟩
    cases hx
    obtain ⟨rfl, hle⟩ := (leftFold_sumItems h4.nonneg.2 h4.nonneg.1 h5.1 v).1 hf
    exact ⟨t, n, items, h3, h4, hle, rfl⟩
  · rintro ⟨t, n, items, h3, h4, hle, rfl⟩
    have a := itemSum_nonneg h4.nonneg.2
    have b := h4.nonneg.1
    obtain ⟨s0, pos0, s', pos', m, e, h1, hm⟩ :=
      (chain_iff h.onText h.nth2 h.seq2 ho hops s start _ _).2 ⟨t, n, items, h3, h4, ⟨by omega, fun i hi => by
        have := le_itemSum h4.nonneg.2 hi; omega⟩, rfl, rfl⟩
    exact ⟨s', pos', (C18_foldl_start_with_parser ..).2 ⟨_, _, _, _, m, e, _, h1, hm, rfl,
      (leftFold_sumItems h4.nonneg.2 h4.nonneg.1 (by omega) _).2 ⟨rfl, hle⟩⟩⟩

/-- `exp_parser9`, `exp_parser10` and `exp_parser11` are three ways to write the same parser: all give the sum
of the longest text "number + number + … + number" at the beginning, if it fits in `int`. -/
theorem C67_sum (h : E.Tutorial) (s : List Chr) (v : Val) :
    (Tutorial.expParser11 E s = .ok v ↔ ∃ t n items, LongestPrefix (IsChain [ch '+']) s t ∧
      ChainText [ch '+'] t n items ∧ n + itemSum items ≤ 2147483647 ∧ v = .int (n + itemSum items)) ∧
    (Tutorial.expParser9 E s = .ok v ↔ Tutorial.expParser11 E s = .ok v) ∧
    (Tutorial.expParser10 E s = .ok v ↔ Tutorial.expParser11 E s = .ok v) := by
  have h11 := sum_from_first h h.plus (by decide) s v
  refine ⟨h11, (sum_of_all h s v _ sumOfItems_run).trans h11.symm, (sum_of_all h s v _ ?_).trans h11.symm⟩
  intro s pos w s' pos'
  refine (C12_foldl_accepts ..).trans ?_
  constructor
  · rintro ⟨vs, m, e, x, h1, h2, h3⟩; cases h2; exact ⟨vs, m, e, h1, h3⟩
  · rintro ⟨vs, m, e, h1, h3⟩; exact ⟨vs, m, e, _, h1, rfl, h3⟩

/-! ## Several operators -/

/-- `exp_parser12` reads minus signs as well, but adds the numbers after them. -/
theorem C67_ignores_operators (h : E.Tutorial) (s : List Chr) (v : Val) :
    Tutorial.expParser12 E s = .ok v ↔ ∃ t n items, LongestPrefix (IsChain [ch '+', ch '-']) s t ∧
      ChainText [ch '+', ch '-'] t n items ∧ n + itemSum items ≤ 2147483647 ∧
      v = .int (n + itemSum items) :=
  sum_from_first h h.plusOps (by decide) s v

theorem flat_from_first (h : E.Tutorial) {o : P} {ops : List Chr} (ho : ReadsOp E o ops)
    (hops : NotInNumbers ops) (hsub : ∀ c ∈ ops, c ∈ [ch '+', ch '-', ch '*']) (s : List Chr) (v : Val) :
    buildParser E (.foldlStartWithParser (.sequence [o, Tutorial.intToken]) Tutorial.intToken
        Tutorial.binaryOp) s = .ok v ↔
      ∃ t n items k, LongestPrefix (IsChain ops) s t ∧ ChainText ops t n items ∧
        chainValue n items = some k ∧ v = .int k := by
  have fit : ∀ {n items}, (∃ k, chainValue n items = some k) → 
      fits n = some n ∧ ∀ i ∈ items, fits i.2 = some i.2 := by
    intro n items
    rintro ⟨k, hk⟩
    obtain ⟨x, hx, hk'⟩ := option_bind_eq.1 hk
    refine ⟨?_, ?_⟩
    · obtain ⟨rfl, -, -⟩ := fits_eq_some.1 hx; exact hx
    clear hx hk
    induction items generalizing x with
    | nil => simp
    | cons i items ih =>
      rw [List.foldlM_cons] at hk'
      obtain ⟨y, hy, hk''⟩ := option_bind_eq.1 hk'
      obtain ⟨z, hz, hy⟩ := option_bind_eq.1 hy
      intro j hj
      rcases List.mem_cons.1 hj with rfl | hj
      · obtain ⟨rfl, -, -⟩ := fits_eq_some.1 hz; exact hz
      · exact ih y hk'' j hj
  refine (C34_buildParser_accepts ..).trans ?_
  constructor
  · rintro ⟨s', pos', ha⟩
    obtain ⟨x, s0, pos0, vs, m, e, x', h1, hm, hx, hf⟩ := (C18_foldl_start_with_parser ..).1 ha
    obtain ⟨t, n, items, h3, h4, h5, rfl, rfl⟩ := (chain_iff h.onText h.nth2 h.seq2 ho hops s start x vs).1
      ⟨_, _, _, _, _, _, h1, hm⟩
    cases hx
    have hfit : ∀ i ∈ items, fits i.2 = some i.2 := fun i hi => by
      have := h4.nonneg.2 i hi
      exact fits_eq_some.2 ⟨rfl, by omega, h5.2 i hi⟩
    rw [leftFold_binaryOp (fun i hi => hsub _ (h4.mem i hi)) hfit, ofOption_eq_ok] at hf
    obtain ⟨k, hk, rfl⟩ := hf
    have := h4.nonneg.1
    exact ⟨t, n, items, k, h3, h4, option_bind_eq.2 ⟨n, fits_eq_some.2 ⟨rfl, by omega, h5.1⟩, hk⟩, rfl⟩
  · rintro ⟨t, n, items, k, h3, h4, hk, rfl⟩
    obtain ⟨hn, hi⟩ := fit ⟨k, hk⟩
    obtain ⟨s0, pos0, s', pos', m, e, h1, hm⟩ :=
      (chain_iff h.onText h.nth2 h.seq2 ho hops s start _ _).2 ⟨t, n, items, h3, h4,
        ⟨(fits_eq_some.1 hn).2.2, fun i h => (fits_eq_some.1 (hi i h)).2.2⟩, rfl, rfl⟩
    refine ⟨s', pos', (C18_foldl_start_with_parser ..).2 ⟨_, _, _, _, m, e, _, h1, hm, rfl, ?_⟩⟩
    rw [leftFold_binaryOp (fun i hi => hsub _ (h4.mem i hi)) hi, ofOption_eq_ok]
    rw [chainValue, hn] at hk
    exact ⟨k, hk, rfl⟩

/-- `exp_parser13` adds and subtracts from left to right. -/
theorem C67_plus_minus (h : E.Tutorial) (s : List Chr) (v : Val) :
    Tutorial.expParser13 E s = .ok v ↔ ∃ t n items k, LongestPrefix (IsChain [ch '+', ch '-']) s t ∧
      ChainText [ch '+', ch '-'] t n items ∧ chainValue n items = some k ∧ v = .int k :=
  flat_from_first h h.plusOps (by decide) (by decide) s v

/-- `exp_parser14` reads `*` as well and applies all operators from left to right, without precedence. -/
theorem C67_no_precedence (h : E.Tutorial) (s : List Chr) (v : Val) :
    Tutorial.expParser14 E s = .ok v ↔ ∃ t n items k,
      LongestPrefix (IsChain [ch '+', ch '-', ch '*']) s t ∧
      ChainText [ch '+', ch '-', ch '*'] t n items ∧ chainValue n items = some k ∧ v = .int k :=
  flat_from_first h h.flatOps (by decide) (by decide) s v

/-! ## They always finish -/

/-- None of the parsers of sums recurses without end. -/
theorem C67_finishes (h : E.Tutorial) (s : List Chr) :
    Tutorial.expParser7 E s ≠ .deep ∧ Tutorial.expParser9 E s ≠ .deep ∧ Tutorial.expParser10 E s ≠ .deep ∧
      Tutorial.expParser11 E s ≠ .deep ∧ Tutorial.expParser12 E s ≠ .deep ∧
      Tutorial.expParser13 E s ≠ .deep ∧ Tutorial.expParser14 E s ≠ .deep ∧ Tutorial.expParser8 E s ≠ .deep ∧
      Tutorial.expParser1 E s ≠ .deep ∧ Tutorial.expParser2 E s ≠ .deep ∧ Tutorial.expParser3 E s ≠ .deep ∧
      Tutorial.expParser4 E s ≠ .deep ∧ Tutorial.expParser5 E s ≠ .deep ∧ Tutorial.expParser6 E s ≠ .deep := by
  refine ⟨?_, ?_, ?_, ?_, ?_, ?_, ?_, ?_, ?_, ?_, ?_, ?_, ?_, ?_⟩
  all_goals
    refine buildParser_finishes (finishes_of_check h.onText (R := P.space) (cls := fun _ => False)
      (fun _ h => h.elim) ?_ ?_ ?_ ?_ (by decide +kernel) (by decide +kernel) (by decide +kernel) s start)
  all_goals
    simp [P.every_iff, P.EveryL, P.parts, P.Uses, onlyClasses, Tutorial.plusItem, Tutorial.numberAndSum, Tutorial.sumOfTwo, P.entireInput,
      Tutorial.intToken, Tutorial.plusToken, Tutorial.minusToken, Tutorial.timesToken, P.token,
      P.FunctionsFinish, P.firstOf, P.litC, P.int_, P.foldl1, P.digitVal, P.digit, P.space, P.repeated,
      isDigit, inRangeC, isCharC, isWhitespace, Out.bind_eq_deep, Val.value_ne_deep]

/-- What does not begin with a number, or has a sum that does not fit in `int`, is a compile error. -/
theorem C67_compile_error (h : E.Tutorial) (s : List Chr) :
    (∃ f, Tutorial.expParser11 E s = .ill f) ↔
      ¬ ∃ t n items, LongestPrefix (IsChain [ch '+']) s t ∧ ChainText [ch '+'] t n items ∧
        n + itemSum items ≤ 2147483647 := by
  refine (ill_iff_of_finishes (C67_finishes h s).2.2.2.1 (fun v => (C67_sum h s v).1)).trans ?_
  constructor
  · rintro h ⟨t, n, items, h1, h2, h3⟩; exact h ⟨_, t, n, items, h1, h2, h3, rfl⟩
  · rintro h ⟨_, t, n, items, h1, h2, h3, -⟩; exact h ⟨t, n, items, h1, h2, h3⟩

/-! ## Examples -/

/-- An environment of the tutorial. -/
def tutorialEnv (std : Std) : Env (List Chr) := { input := listInput, std := std, rules := Tutorial.classes }

theorem tutorialEnv_tutorial (std : Std) : (tutorialEnv std).Tutorial :=
  ⟨rfl, rfl, rfl, rfl, fun _ => by simp [tutorialEnv], fun _ => by simp [tutorialEnv]⟩

/-- The text ends where no plus sign with a number follows. -/
example : LongestPrefix (IsChain [ch '+']) (txt "1 +2") (txt "1 +2") ∧
    ChainText [ch '+'] (txt "1 +2") 1 [(ch '+', 2)] := by
  have h : ChainText [ch '+'] (txt "1 +2") 1 [(ch '+', 2)] :=
    .more (t := txt "1 ") (ws := []) (u := txt "2") (items := [])
      (.one ⟨txt "1", txt " ", rfl, by decide, by decide, by decide, by decide⟩) (by decide) (by decide)
      ⟨txt "2", [], rfl, by decide, by decide, by decide, by decide⟩
  exact ⟨⟨List.prefix_rfl, ⟨_, _, h⟩, fun u hu _ => hu.length_le⟩, h⟩

/-- `/repo/doc/getting_started.qbk:1044` -/
example : Accepts (tutorialEnv .cpp11) (.foldlStartWithParser Tutorial.plusItem Tutorial.intToken
    Tutorial.sumItems) (txt "1 + 2 + 3 + 4 +") start (.int 10) (txt "+") ⟨1, 15, ch ' '⟩ :=
  accepts_of_eval 60 (by decide +kernel)

/-- `exp_parser12` makes 6 of `1 + 2 - 3`, `exp_parser13` makes 0 of it, `exp_parser14` makes 9 of
`1 + 2 * 3`. -/
example : Accepts (tutorialEnv .cpp11) (.foldlStartWithParser (.sequence [.oneOf [Tutorial.plusToken,
    Tutorial.minusToken], Tutorial.intToken]) Tutorial.intToken Tutorial.sumItems) (txt "1 + 2 - 3") start
    (.int 6) [] ⟨1, 10, ch '3'⟩ := accepts_of_eval 60 (by decide +kernel)

example : Accepts (tutorialEnv .cpp11) (.foldlStartWithParser (.sequence [.oneOf [Tutorial.plusToken,
    Tutorial.minusToken], Tutorial.intToken]) Tutorial.intToken Tutorial.binaryOp) (txt "1 + 2 - 3") start
    (.int 0) [] ⟨1, 10, ch '3'⟩ := accepts_of_eval 60 (by decide +kernel)

example : Accepts (tutorialEnv .cpp98) (.foldlStartWithParser (.sequence [.oneOf [Tutorial.plusToken,
    Tutorial.minusToken, Tutorial.timesToken], Tutorial.intToken]) Tutorial.intToken Tutorial.binaryOp)
    (txt "1 + 2 * 3") start (.int 9) [] ⟨1, 10, ch '3'⟩ := accepts_of_eval 60 (by decide +kernel)

/-- What the parsers of the tutorial make of `1 +2`. -/
example : Tutorial.expParser7 (tutorialEnv .cpp98) (txt "1 +2") =
      .ok (.seq [.int 1, .seq [.seq [.chr (ch '+'), .int 2]]]) ∧
    Tutorial.expParser8 (tutorialEnv .cpp98) (txt "1 +2") = .ok (.seq [.int 1, .int 2]) ∧
    Tutorial.expParser9 (tutorialEnv .cpp98) (txt "1 +2") = .ok (.int 3) ∧
    Tutorial.expParser10 (tutorialEnv .cpp98) (txt "1 +2") = .ok (.int 3) ∧
    Tutorial.expParser11 (tutorialEnv .cpp98) (txt "1 +2") = .ok (.int 3) := by
  have h : ChainText [ch '+'] (txt "1 +2") 1 [(ch '+', 2)] :=
    .more (t := txt "1 ") (ws := []) (u := txt "2") (items := [])
      (.one ⟨txt "1", txt " ", rfl, by decide, by decide, by decide, by decide⟩) (by decide) (by decide)
      ⟨txt "2", [], rfl, by decide, by decide, by decide, by decide⟩
  have hl : LongestPrefix (IsChain [ch '+']) (txt "1 +2") (txt "1 +2") :=
    ⟨List.prefix_rfl, ⟨_, _, h⟩, fun u hu _ => hu.length_le⟩
  have he := tutorialEnv_tutorial .cpp98
  have h11 := (C67_sum he (txt "1 +2") (.int 3)).1.2 ⟨_, _, _, hl, h, by decide, rfl⟩
  refine ⟨(C67_list he _ _).2 ⟨_, _, _, hl, h, ⟨by decide, by simp⟩, rfl⟩,
    (C67_number_and_sum he _ _).2 ⟨_, _, _, hl, h, by decide, by decide, rfl⟩,
    (C67_sum he _ _).2.1.2 h11, (C67_sum he _ _).2.2.2 h11, h11⟩

/-- `exp_parser1` reads the number at the beginning, `exp_parser2` wants nothing else, `exp_parser3` takes white space
after it. -/
example : Tutorial.expParser1 (tutorialEnv .cpp11) (txt "13 x") = .ok (.int 13) ∧
    (∀ v, Tutorial.expParser2 (tutorialEnv .cpp11) (txt "13 ") ≠ .ok v) ∧
    Tutorial.expParser3 (tutorialEnv .cpp11) (txt "13 ") = .ok (.int 13) := by
  have he := tutorialEnv_tutorial .cpp11
  refine ⟨(C67_numbers he _ _).1.2 ⟨txt "13", txt " x", rfl, by decide, by decide, by decide, by decide, rfl⟩,
    fun v h => absurd ((C67_numbers he _ _).2.1.1 h).2.1 (by decide),
    (C67_numbers he _ _).2.2.2 ⟨13, ⟨txt "13", txt " ", rfl, by decide, by decide, by decide, by decide⟩, by decide, rfl⟩⟩

/-- `1+2` is two numbers for `exp_parser5` and 3 for `exp_parser6`. -/
example : Tutorial.expParser5 (tutorialEnv .cpp98) (txt "1+2") = .ok (.seq [.int 1, .chr (ch '+'), .int 2]) ∧
    Tutorial.expParser6 (tutorialEnv .cpp98) (txt "1+2") = .ok (.int 3) := by
  have h : ChainText [ch '+'] (txt "1+2") 1 [(ch '+', 2)] :=
    .more (t := txt "1") (ws := []) (u := txt "2") (items := [])
      (.one ⟨txt "1", [], rfl, by decide, by decide, by decide, by decide⟩) (by decide) (by decide)
      ⟨txt "2", [], rfl, by decide, by decide, by decide, by decide⟩
  have hl : LongestPrefix IsSumOfTwo (txt "1+2") (txt "1+2") := ⟨List.prefix_rfl, ⟨_, _, h⟩, fun u hu _ => hu.length_le⟩
  have he := tutorialEnv_tutorial .cpp98
  exact ⟨(C67_two_numbers he _ _).1.2 ⟨_, _, _, hl, h, by decide, by decide, rfl⟩,
    (C67_two_numbers he _ _).2.2.2 ⟨_, _, _, hl, h, by decide, rfl⟩⟩

/-- `1+2-3` is 6 for `exp_parser12` and 0 for `exp_parser13`. -/
example : Tutorial.expParser12 (tutorialEnv .cpp98) (txt "1+2-3") = .ok (.int 6) ∧
    Tutorial.expParser13 (tutorialEnv .cpp98) (txt "1+2-3") = .ok (.int 0) := by
  have h : ChainText [ch '+', ch '-'] (txt "1+2-3") 1 [(ch '+', 2), (ch '-', 3)] :=
    .more (t := txt "1+2") (ws := []) (u := txt "3") (items := [(ch '+', 2)])
      (.more (t := txt "1") (ws := []) (u := txt "2") (items := [])
        (.one ⟨txt "1", [], rfl, by decide, by decide, by decide, by decide⟩) (by decide) (by decide)
        ⟨txt "2", [], rfl, by decide, by decide, by decide, by decide⟩) (by decide) (by decide)
      ⟨txt "3", [], rfl, by decide, by decide, by decide, by decide⟩
  have hl : LongestPrefix (IsChain [ch '+', ch '-']) (txt "1+2-3") (txt "1+2-3") :=
    ⟨List.prefix_rfl, ⟨_, _, h⟩, fun u hu _ => hu.length_le⟩
  have he := tutorialEnv_tutorial .cpp98
  exact ⟨(C67_ignores_operators he _ _).2 ⟨_, _, _, hl, h, by decide, rfl⟩,
    (C67_plus_minus he _ _).2 ⟨_, _, _, 0, hl, h, by decide, rfl⟩⟩

/-- `1+2*3` is 9 for `exp_parser14`. -/
example : Tutorial.expParser14 (tutorialEnv .cpp98) (txt "1+2*3") = .ok (.int 9) := by
  have h : ChainText [ch '+', ch '-', ch '*'] (txt "1+2*3") 1 [(ch '+', 2), (ch '*', 3)] :=
    .more (t := txt "1+2") (ws := []) (u := txt "3") (items := [(ch '+', 2)])
      (.more (t := txt "1") (ws := []) (u := txt "2") (items := [])
        (.one ⟨txt "1", [], rfl, by decide, by decide, by decide, by decide⟩) (by decide) (by decide)
        ⟨txt "2", [], rfl, by decide, by decide, by decide, by decide⟩) (by decide) (by decide)
      ⟨txt "3", [], rfl, by decide, by decide, by decide, by decide⟩
  exact (C67_no_precedence (tutorialEnv_tutorial .cpp98) _ _).2
    ⟨_, _, _, 9, ⟨List.prefix_rfl, ⟨_, _, h⟩, fun u hu _ => hu.length_le⟩, h, by decide, rfl⟩

example (std : Std) : Tutorial.expParser14 (tutorialEnv std) (txt "1+2*") ≠ .deep :=
  (C67_finishes (tutorialEnv_tutorial std) _).2.2.2.2.2.2.1

end Metaparse
