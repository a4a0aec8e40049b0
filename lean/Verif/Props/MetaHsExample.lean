import Verif.Spec.MetaHsExample
import Verif.Lemmas.MetaHsTexts
/-!
# C75: the example of `meta_hs` computes the same as the version made by hand
-/

namespace Metaparse

open HsEval

/-- The program of the example. -/
def exampleProgram : HsProgram :=
  [(txt "times11", .function [txt "n"] times11Body), (txt "times4", .function [txt "n"] times4Body),
    (txt "fact", .function [txt "n"] factBody), (txt "fib", .function [txt "n"] fibBody),
    (txt "val", .constant 11), (txt "f", .native 1 doubleNumber)]

/-- The commands of the example. -/
def exampleCommands : List HsCommand :=
  [.native (txt "f") 1 doubleNumber, .constant (txt "val") 11,
    .define (txt "fib n = if n<2 then 1 else fib(n-2) + fib(n-1)"),
    .define (txt "fact n = if n<1 then 1 else n * fact(n-1)"),
    .define (txt "times4 n = f (f n)"),
    .define (txt "times11 n = n * val")]

theorem example_written : Written false [] exampleCommands exampleProgram :=
  .native (isName_of_check (by decide)) (.constant (isName_of_check (by decide)) (.define fib_def (.define fact_def
    (.define times4_def (.define times11_def .nil)))))

theorem example_fine : exampleProgram.Fine := by
  intro f ps b h
  have hn : ∀ P, varN.Fine P [txt "n"] := fun P => .inl (List.mem_cons_self ..)
  have key : ∀ {i : HsItem}, some i = some (.function ps b) → (∀ ps b, i = .function ps b → ps ≠ [] ∧ b.Fine exampleProgram ps) →
      ps ≠ [] ∧ b.Fine exampleProgram ps := fun h h' => h' _ _ (Option.some.inj h)
  simp only [exampleProgram, lookup_cons] at h
  split at h
  · refine key h fun ps b e => ?_
    injection e with e1 e2
    subst e1 e2
    exact ⟨by simp, ⟨2, by decide⟩, hn _, .inr ⟨_, rfl⟩⟩
  split at h
  · refine key h fun ps b e => ?_
    injection e with e1 e2
    subst e1 e2
    refine ⟨by simp, .inr ⟨_, rfl⟩, ⟨.inr ⟨_, rfl⟩, hn _, .inl ⟨by decide, _, _, rfl⟩⟩, .inl ⟨by decide, _, _, rfl⟩⟩
  split at h
  · refine key h fun ps b e => ?_
    injection e with e1 e2
    subst e1 e2
    exact ⟨by simp, ⟨⟨0, by decide⟩, hn _, trivial⟩, trivial, ⟨2, by decide⟩, hn _, .inr ⟨_, rfl⟩,
      ⟨⟨1, by decide⟩, hn _, trivial⟩, .inr trivial⟩
  split at h
  · refine key h fun ps b e => ?_
    injection e with e1 e2
    subst e1 e2
    exact ⟨by simp, ⟨⟨0, by decide⟩, hn _, trivial⟩, trivial, ⟨1, by decide⟩,
      ⟨.inr ⟨_, rfl⟩, ⟨⟨1, by decide⟩, hn _, trivial⟩, .inr trivial⟩,
      .inr ⟨_, rfl⟩, ⟨⟨1, by decide⟩, hn _, trivial⟩, .inr trivial⟩
  split at h
  · exact key h fun ps b e => by cases e
  split at h
  · exact key h fun ps b e => by cases e
  · cases h

/-! ## The results of the program -/

theorem hasResult_one {P : HsProgram} {f x : List Chr} {b : HsExp} (hf : P.lookup f = some (.function [x] b)) {k m : Int} :
    HasResult P f [k] m ↔ ∃ w, Evals P [(x, .given k)] b w ∧ w.number = some m := by
  constructor
  · rintro ⟨v, w, h1, h2, h3⟩
    obtain rfl := h1.unique (.function rfl hf)
    cases h2 with
    | last h4 h5 =>
      cases h5
      exact ⟨_, h4, h3⟩
  · rintro ⟨w, h1, h2⟩
    exact ⟨_, w, .function rfl hf, .last h1 .nil, h2⟩

theorem fitting_eq {k : Int} (h : FitsInt k) : fitting k = some (.int k) := by
  unfold FitsInt at h
  unfold fitting
  rw [if_pos h]

theorem fitting_inv {k : Int} {u : HsVal} (h : fitting k = some u) : FitsInt k ∧ u = .int k := by
  unfold fitting at h
  split at h
  · rename_i hk
    injection h with h
    exact ⟨hk, h.symm⟩
  · cases h

section
variable {P : HsProgram} {t : Thunk} {i : Int}

theorem ev_n (h : Force P t (.int i)) : Evals P [(txt "n", t)] varN (.int i) := .param rfl h

theorem ev_less (h : Force P t (.int i)) (c : Int) :
    Evals P [(txt "n", t)] (.op (txt "<") varN (.num c)) (.bool (decide (i < c))) :=
  .op (ev_n h) .num rfl rfl (fun _ => .inl ⟨i, rfl⟩) rfl

theorem ev_sub (h : Force P t (.int i)) (c : Int) (hf : FitsInt (i - c)) :
    Evals P [(txt "n", t)] (.op (txt "-") varN (.num c)) (.int (i - c)) :=
  .op (ev_n h) .num rfl rfl (fun _ => .inl ⟨i, rfl⟩) (fitting_eq hf)

end

theorem fibonacci_pos (n : Nat) : 1 ≤ fibonacci n ∧ 1 ≤ fibonacci (n + 1) := by
  induction n with
  | zero => decide
  | succ n ih => exact ⟨ih.2, by rw [fibonacci]; omega⟩

theorem factorial_pos (n : Nat) : 1 ≤ factorial n := by
  induction n with
  | zero => decide
  | succ n ih =>
    rw [factorial]
    have := Int.mul_le_mul (show (1 : Int) ≤ n + 1 by omega) ih (by decide) (by omega)
    simpa using this

theorem fibonacci_toNat {i : Int} (h : 2 ≤ i) :
    fibonacci i.toNat = fibonacci (i - 2).toNat + fibonacci (i - 1).toNat := by
  obtain ⟨n, rfl⟩ : ∃ n : Nat, i = n + 2 := ⟨(i - 2).toNat, by omega⟩
  rw [show ((n : Int) + 2).toNat = n + 2 by omega, show ((n : Int) + 2 - 2).toNat = n by omega,
    show ((n : Int) + 2 - 1).toNat = n + 1 by omega, fibonacci]

theorem factorial_toNat {i : Int} (h : 1 ≤ i) : factorial i.toNat = i * factorial (i - 1).toNat := by
  obtain ⟨n, rfl⟩ : ∃ n : Nat, i = n + 1 := ⟨(i - 1).toNat, by omega⟩
  rw [show ((n : Int) + 1).toNat = n + 1 by omega, show ((n : Int) + 1 - 1).toNat = n by omega, factorial]

theorem fib_lookup : exampleProgram.lookup (txt "fib") = some (.function [txt "n"] fibBody) := rfl
theorem fact_lookup : exampleProgram.lookup (txt "fact") = some (.function [txt "n"] factBody) := rfl
theorem times4_lookup : exampleProgram.lookup (txt "times4") = some (.function [txt "n"] times4Body) := rfl
theorem times11_lookup : exampleProgram.lookup (txt "times11") = some (.function [txt "n"] times11Body) := rfl
theorem val_lookup : exampleProgram.lookup (txt "val") = some (.constant 11) := rfl
theorem f_lookup : exampleProgram.lookup (txt "f") = some (.native 1 doubleNumber) := rfl

theorem fib_small {t : Thunk} {i : Int} (h : Force exampleProgram t (.int i)) (hi : i < 2) :
    Evals exampleProgram [(txt "n", t)] fibBody (.int 1) :=
  .thenBranch (k := 1) (ev_less h 2) (by simp [HsVal.number, hi]) (by decide) .num

theorem app_inv {P : HsProgram} {ρ : Locals} {f x : List Chr} {a b : HsExp} {v : HsVal}
    (hl : ρ.lookup f = none) (hf : P.lookup f = some (.function [x] b)) (h : Evals P ρ (.app (.var f) a) v) :
    Evals P [(x, .delayed a ρ)] b v := by
  cases h with
  | last h1 h2 =>
    injection h1.unique (.function hl hf) with e1 e2 e3 e4
    subst e1 e3 e4
    exact h2
  | more h1 => injection h1.unique (.function hl hf) with e1 e2; cases e2
  | lastNative h1 => cases h1.unique (.function hl hf)
  | moreNative h1 => cases h1.unique (.function hl hf)

theorem op_inv {P : HsProgram} {ρ : Locals} {o : List Chr} {a b : HsExp} {u : HsVal} (h : Evals P ρ (.op o a b) u) :
    ∃ v w i j, Evals P ρ a v ∧ Evals P ρ b w ∧ v.number = some i ∧ w.number = some j ∧ operate o i j = some u := by
  cases h with
  | op h1 h2 h3 h4 h5 h6 => exact ⟨_, _, _, _, h1, h2, h3, h4, h6⟩

theorem else_inv {P : HsProgram} {ρ : Locals} {c a b : HsExp} {v : HsVal} (h : Evals P ρ (.cond c a b) v)
    (hc : Evals P ρ c (.bool false)) : Evals P ρ b v := by
  cases h with
  | thenBranch h1 h2 h3 _ =>
    obtain rfl := h1.unique hc
    injection h2 with h2
    exact (h3 h2.symm).elim
  | elseBranch _ _ h => exact h

theorem fib_evals (n : Nat) : ∀ {i : Int} {t : Thunk}, i.toNat = n → i ≤ 2147483647 → Force exampleProgram t (.int i) →
    fibonacci i.toNat ≤ 2147483647 → Evals exampleProgram [(txt "n", t)] fibBody (.int (fibonacci i.toNat)) := by
  induction n using Nat.strongRecOn with
  | _ n ih =>
    intro i t hn hi ht hf
    by_cases h2 : i < 2
    · have : fibonacci i.toNat = 1 := by
        rcases (show i.toNat = 0 ∨ i.toNat = 1 by omega) with h | h <;> rw [h] <;> rfl
      rw [this]
      exact fib_small ht h2
    · have hr := fibonacci_toNat (i := i) (by omega)
      have hp2 := (fibonacci_pos (i - 2).toNat).1
      have hp1 := (fibonacci_pos (i - 1).toNat).1
      have e2 := ih (i - 2).toNat (by omega) (i := i - 2) (t := .delayed (.op (txt "-") varN (.num 2)) [(txt "n", t)]) rfl
        (by omega) (.delayed (ev_sub ht 2 ⟨by omega, by omega⟩)) (by omega)
      have e1 := ih (i - 1).toNat (by omega) (i := i - 1) (t := .delayed (.op (txt "-") varN (.num 1)) [(txt "n", t)]) rfl
        (by omega) (.delayed (ev_sub ht 1 ⟨by omega, by omega⟩)) (by omega)
      rw [hr] at hf ⊢
      refine .elseBranch (ev_less ht 2) (by simp [HsVal.number, h2]) ?_
      exact .op (.last (.function rfl fib_lookup) e2) (.last (.function rfl fib_lookup) e1) rfl rfl
        (fun _ => .inl ⟨_, rfl⟩) (fitting_eq ⟨by omega, hf⟩)

theorem fib_only (n : Nat) : ∀ {i : Int} {t : Thunk} {v : HsVal}, i.toNat = n → i ≤ 2147483647 →
    Force exampleProgram t (.int i) → Evals exampleProgram [(txt "n", t)] fibBody v →
    v = .int (fibonacci i.toNat) ∧ fibonacci i.toNat ≤ 2147483647 := by
  induction n using Nat.strongRecOn with
  | _ n ih =>
    intro i t v hn hi ht hv
    by_cases h2 : i < 2
    · have : fibonacci i.toNat = 1 := by
        rcases (show i.toNat = 0 ∨ i.toNat = 1 by omega) with h | h <;> rw [h] <;> rfl
      rw [this]
      exact ⟨hv.unique (fib_small ht h2), by decide⟩
    · have hl := ev_less ht 2
      rw [decide_eq_false h2] at hl
      obtain ⟨a, b, x, y, ha, hb, hx, hy, hop⟩ := op_inv (else_inv hv hl)
      obtain ⟨rfl, -⟩ := ih (i - 2).toNat (by omega) (i := i - 2) rfl (by omega) (.delayed (ev_sub ht 2 ⟨by omega, by omega⟩))
        (app_inv rfl fib_lookup ha)
      obtain ⟨rfl, -⟩ := ih (i - 1).toNat (by omega) (i := i - 1) rfl (by omega) (.delayed (ev_sub ht 1 ⟨by omega, by omega⟩))
        (app_inv rfl fib_lookup hb)
      injection hx with hx
      injection hy with hy
      subst hx hy
      obtain ⟨h1, h2⟩ := fitting_inv (k := fibonacci (i - 2).toNat + fibonacci (i - 1).toNat) hop
      rw [fibonacci_toNat (by omega)]
      exact ⟨h2, h1.2⟩

theorem fact_small {t : Thunk} {i : Int} (h : Force exampleProgram t (.int i)) (hi : i < 1) :
    Evals exampleProgram [(txt "n", t)] factBody (.int 1) :=
  .thenBranch (k := 1) (ev_less h 1) (by simp [HsVal.number, hi]) (by decide) .num

theorem fact_mono {i : Int} (h : 1 ≤ i) : factorial (i - 1).toNat ≤ factorial i.toNat := by
  rw [factorial_toNat h]
  have := Int.mul_le_mul h (Int.le_refl (factorial (i - 1).toNat)) (by have := factorial_pos (i - 1).toNat; omega) (by omega)
  simpa using this

theorem fact_evals (n : Nat) : ∀ {i : Int} {t : Thunk}, i.toNat = n → i ≤ 2147483647 → Force exampleProgram t (.int i) →
    factorial i.toNat ≤ 2147483647 → Evals exampleProgram [(txt "n", t)] factBody (.int (factorial i.toNat)) := by
  induction n with
  | zero =>
    intro i t hn hi ht hf
    rw [hn]
    exact fact_small ht (by omega)
  | succ n ih =>
    intro i t hn hi ht hf
    have hr := factorial_toNat (i := i) (by omega)
    have hp1 := factorial_pos i.toNat
    have e1 := ih (i := i - 1) (t := .delayed (.op (txt "-") varN (.num 1)) [(txt "n", t)]) (by omega)
      (by omega) (.delayed (ev_sub ht 1 ⟨by omega, by omega⟩)) (by have := fact_mono (i := i) (by omega); omega)
    rw [hr] at hf hp1 ⊢
    refine .elseBranch (ev_less ht 1) (by simp [HsVal.number, show ¬ i < 1 by omega]) ?_
    exact .op (ev_n ht) (.last (.function rfl fact_lookup) e1) rfl rfl
      (fun _ => .inl ⟨_, rfl⟩) (fitting_eq ⟨by omega, hf⟩)

theorem fact_only (n : Nat) : ∀ {i : Int} {t : Thunk} {v : HsVal}, i.toNat = n → i ≤ 2147483647 →
    Force exampleProgram t (.int i) → Evals exampleProgram [(txt "n", t)] factBody v →
    v = .int (factorial i.toNat) ∧ factorial i.toNat ≤ 2147483647 := by
  induction n with
  | zero =>
    intro i t v hn hi ht hv
    rw [hn]
    exact ⟨hv.unique (fact_small ht (by omega)), by decide⟩
  | succ n ih =>
    intro i t v hn hi ht hv
    have hl := ev_less ht 1
    rw [decide_eq_false (by omega)] at hl
    obtain ⟨a, b, x, y, ha, hb, hx, hy, hop⟩ := op_inv (else_inv hv hl)
    obtain rfl := ha.unique (ev_n ht)
    obtain ⟨rfl, -⟩ := ih (i := i - 1) (by omega) (by omega) (.delayed (ev_sub ht 1 ⟨by omega, by omega⟩))
      (app_inv rfl fact_lookup hb)
    injection hx with hx
    injection hy with hy
    subst hx hy
    obtain ⟨h1, h2⟩ := fitting_inv (k := i * factorial (i - 1).toNat) hop
    rw [factorial_toNat (by omega)]
    exact ⟨h2, h1.2⟩

/-! ## What comes out -/

variable {E : Env (List Chr)}

theorem callExample_iff (h : E.MetaHs) {f : List Chr} (hf : IsName f) (k m : Int) :
    callExample E f k = .ok m ↔ HasResult exampleProgram f [k] m := by
  obtain ⟨env, hb⟩ := C74_builds h example_written
  have he : metafunctions E = .ok env := hb
  rw [callExample, he, Out.bind_ok]
  exact C74_exact h example_written example_fine hf [k] m hb

/-- `fib` gives the Fibonacci numbers that `int` can hold. -/
theorem C75_fib (h : E.MetaHs) {k : Int} (hk : k ≤ 2147483647) (m : Int) :
    callExample E (txt "fib") k = .ok m ↔ m = fibonacci k.toNat ∧ FitsInt (fibonacci k.toNat) := by
  rw [callExample_iff h (isName_of_check (by decide)), hasResult_one fib_lookup]
  constructor
  · rintro ⟨w, h1, h2⟩
    obtain ⟨rfl, h3⟩ := fib_only _ rfl hk .given h1
    injection h2 with h2
    have := (fibonacci_pos k.toNat).1
    exact ⟨h2.symm, by omega, h3⟩
  · rintro ⟨rfl, h1⟩
    exact ⟨_, fib_evals _ rfl hk .given h1.2, rfl⟩

/-- `fact` gives the factorials that `int` can hold. -/
theorem C75_fact (h : E.MetaHs) {k : Int} (hk : k ≤ 2147483647) (m : Int) :
    callExample E (txt "fact") k = .ok m ↔ m = factorial k.toNat ∧ FitsInt (factorial k.toNat) := by
  rw [callExample_iff h (isName_of_check (by decide)), hasResult_one fact_lookup]
  constructor
  · rintro ⟨w, h1, h2⟩
    obtain ⟨rfl, h3⟩ := fact_only _ rfl hk .given h1
    injection h2 with h2
    have := factorial_pos k.toNat
    exact ⟨h2.symm, by omega, h3⟩
  · rintro ⟨rfl, h1⟩
    exact ⟨_, fact_evals _ rfl hk .given h1.2, rfl⟩

theorem intC_iff {n k : Int} : intC n = .ok k ↔ k = n ∧ FitsInt n := by
  unfold intC FitsInt intMin intMax
  split
  · rename_i h
    simp [h, eq_comm]
  · rename_i h
    simp [h]

theorem ev_double {ρ : Locals} {a : HsExp} {i : Int} (hl : ρ.lookup (txt "f") = none)
    (ha : Evals exampleProgram ρ a (.int i)) (hf : FitsInt (i * 2)) :
    Evals exampleProgram ρ (.app (.var (txt "f")) a) (.int (i * 2)) :=
  .lastNative (ks := [i]) (.native hl f_lookup) rfl (.cons (.delayed ha) rfl .nil) (intC_iff.2 ⟨rfl, hf⟩)

theorem double_inv {ρ : Locals} {a : HsExp} {v : HsVal} (hl : ρ.lookup (txt "f") = none)
    (h : Evals exampleProgram ρ (.app (.var (txt "f")) a) v) :
    ∃ w i, Evals exampleProgram ρ a w ∧ w.number = some i ∧ v = .int (i * 2) ∧ FitsInt (i * 2) := by
  cases h with
  | last h1 _ => cases h1.unique (.native hl f_lookup)
  | more h1 => cases h1.unique (.native hl f_lookup)
  | lastNative h1 h2 h3 h4 =>
    injection h1.unique (.native hl f_lookup) with e1 e2 e3
    subst e1 e2 e3
    cases h3 with
    | cons h5 h6 h7 =>
      cases h7
      obtain ⟨rfl, h8⟩ := intC_iff.1 h4
      exact ⟨_, _, h5.inv, h6, rfl, h8⟩
  | moreNative h1 h2 =>
    injection h1.unique (.native hl f_lookup) with e1 e2 e3
    subst e1 e3
    exact (h2 rfl).elim

/-- `times4` gives four times the number, if `int` can hold it. -/
theorem C75_times4 (h : E.MetaHs) (k m : Int) :
    callExample E (txt "times4") k = .ok m ↔ m = k * 4 ∧ FitsInt (k * 4) := by
  rw [callExample_iff h (isName_of_check (by decide)), hasResult_one times4_lookup]
  have hf : ∀ i : Int, FitsInt (i * 2 * 2) → FitsInt (i * 2) := fun i h => ⟨by have := h.1; omega, by have := h.2; omega⟩
  have h4 : k * 2 * 2 = k * 4 := by omega
  constructor
  · rintro ⟨w, h1, h2⟩
    obtain ⟨x, i, h3, h5, rfl, h6⟩ := double_inv rfl h1
    obtain ⟨y, j, h7, h8, rfl, h9⟩ := double_inv rfl h3
    obtain rfl := h7.unique (ev_n .given)
    injection h8 with h8
    injection h5 with h5
    injection h2 with h2
    subst h8 h5 h2
    rw [h4] at *
    exact ⟨rfl, h6⟩
  · rintro ⟨rfl, h1⟩
    rw [← h4] at h1 ⊢
    exact ⟨_, ev_double rfl (ev_double rfl (ev_n .given) (hf k h1)) h1, rfl⟩

/-- `times11` gives eleven times the number, if `int` can hold it. -/
theorem C75_times11 (h : E.MetaHs) (k m : Int) :
    callExample E (txt "times11") k = .ok m ↔ m = k * 11 ∧ FitsInt (k * 11) := by
  rw [callExample_iff h (isName_of_check (by decide)), hasResult_one times11_lookup]
  have hval : ∀ {t : Thunk}, Evals exampleProgram [(txt "n", t)] (.var (txt "val")) (.int 11) := .constant rfl val_lookup
  constructor
  · rintro ⟨w, h1, h2⟩
    obtain ⟨a, b, x, y, ha, hb, hx, hy, hop⟩ := op_inv h1
    obtain rfl := ha.unique (ev_n .given)
    obtain rfl := hb.unique hval
    injection hx with hx
    injection hy with hy
    subst hx hy
    obtain ⟨h3, rfl⟩ := fitting_inv (k := k * 11) hop
    injection h2 with h2
    exact ⟨h2.symm, h3⟩
  · rintro ⟨rfl, h1⟩
    exact ⟨_, .op (ev_n .given) hval rfl rfl (fun _ => .inl ⟨_, rfl⟩) (fitting_eq h1), rfl⟩

/-! ## The version made by hand -/

theorem fibIn_chain (n : Nat) : ∀ k, Out.le (Handcrafted.fibIn n k) (Handcrafted.fibIn (n + 1) k) := by
  induction n with
  | zero => intro k; exact Or.inl rfl
  | succ n ih =>
    intro k
    rw [Handcrafted.fibIn, Handcrafted.fibIn]
    split
    · exact Out.le_refl _
    · exact Out.le_bind (Out.le_refl _) fun a => Out.le_bind (ih a) fun x => Out.le_bind (Out.le_refl _) fun b =>
        Out.le_bind (ih b) fun y => Out.le_refl _

theorem factIn_chain (n : Nat) : ∀ k, Out.le (Handcrafted.factIn n k) (Handcrafted.factIn (n + 1) k) := by
  induction n with
  | zero => intro k; exact Or.inl rfl
  | succ n ih =>
    intro k
    rw [Handcrafted.factIn, Handcrafted.factIn]
    split
    · exact Out.le_refl _
    · exact Out.le_bind (Out.le_refl _) fun a => Out.le_bind (ih a) fun x => Out.le_refl _

theorem fibIn_ok (n : Nat) : ∀ {k m : Int}, k ≤ 2147483647 → Handcrafted.fibIn n k = .ok m →
    m = fibonacci k.toNat ∧ FitsInt (fibonacci k.toNat) := by
  induction n with
  | zero => intro k m _ h; cases h
  | succ n ih =>
    intro k m hk h
    rw [Handcrafted.fibIn] at h
    split at h
    · have : fibonacci k.toNat = 1 := by
        rcases (show k.toNat = 0 ∨ k.toNat = 1 by omega) with h | h <;> rw [h] <;> rfl
      injection h with h
      rw [this]
      exact ⟨h.symm, by decide, by decide⟩
    · simp only [Out.bind_eq_ok] at h
      obtain ⟨a, ha, x, hx, b, hb, y, hy, h⟩ := h
      obtain ⟨rfl, -⟩ := intC_iff.1 ha
      obtain ⟨rfl, -⟩ := intC_iff.1 hb
      obtain ⟨rfl, -⟩ := ih (by omega) hx
      obtain ⟨rfl, -⟩ := ih (by omega) hy
      obtain ⟨rfl, h'⟩ := intC_iff.1 h
      rw [fibonacci_toNat (i := k) (by omega), Int.add_comm]
      exact ⟨by omega, Int.add_comm _ _ ▸ h'⟩

theorem fibIn_big (n : Nat) : ∀ {k : Int}, k.toNat < n → k ≤ 2147483647 → FitsInt (fibonacci k.toNat) →
    Handcrafted.fibIn n k = .ok (fibonacci k.toNat) := by
  induction n with
  | zero => intro k h; omega
  | succ n ih =>
    intro k hn hk h
    rw [Handcrafted.fibIn]
    split
    · have : fibonacci k.toNat = 1 := by
        rcases (show k.toNat = 0 ∨ k.toNat = 1 by omega) with h | h <;> rw [h] <;> rfl
      rw [this]
    · have hr := fibonacci_toNat (i := k) (by omega)
      have hp1 := fibonacci_pos (k - 1).toNat
      have hp2 := fibonacci_pos (k - 2).toNat
      have := h.2
      rw [intC_iff.2 ⟨rfl, show FitsInt (k - 1) from ⟨by omega, by omega⟩⟩, Out.bind_ok,
        ih (by omega) (by omega) ⟨by omega, by omega⟩, Out.bind_ok,
        intC_iff.2 ⟨rfl, show FitsInt (k - 2) from ⟨by omega, by omega⟩⟩, Out.bind_ok,
        ih (by omega) (by omega) ⟨by omega, by omega⟩, Out.bind_ok]
      refine intC_iff.2 ⟨by omega, ?_⟩
      rw [Int.add_comm, ← hr]
      exact h

theorem factIn_ok (n : Nat) : ∀ {k m : Int}, k ≤ 2147483647 → Handcrafted.factIn n k = .ok m →
    m = factorial k.toNat ∧ FitsInt (factorial k.toNat) := by
  induction n with
  | zero => intro k m _ h; cases h
  | succ n ih =>
    intro k m hk h
    rw [Handcrafted.factIn] at h
    split at h
    · injection h with h
      rw [show k.toNat = 0 by omega]
      exact ⟨h.symm, by decide, by decide⟩
    · simp only [Out.bind_eq_ok] at h
      obtain ⟨a, ha, x, hx, h⟩ := h
      obtain ⟨rfl, -⟩ := intC_iff.1 ha
      obtain ⟨rfl, -⟩ := ih (by omega) hx
      obtain ⟨rfl, h'⟩ := intC_iff.1 h
      rw [factorial_toNat (i := k) (by omega)]
      exact ⟨rfl, h'⟩

theorem factIn_big (n : Nat) : ∀ {k : Int}, k.toNat < n → k ≤ 2147483647 → FitsInt (factorial k.toNat) →
    Handcrafted.factIn n k = .ok (factorial k.toNat) := by
  induction n with
  | zero => intro k h; omega
  | succ n ih =>
    intro k hn hk h
    rw [Handcrafted.factIn]
    split
    · rw [show k.toNat = 0 by omega]; rfl
    · have hr := factorial_toNat (i := k) (by omega)
      have hm := fact_mono (i := k) (by omega)
      have hp1 := factorial_pos (k - 1).toNat
      have := h.2
      rw [intC_iff.2 ⟨rfl, show FitsInt (k - 1) from ⟨by omega, by omega⟩⟩, Out.bind_ok,
        ih (by omega) (by omega) ⟨by omega, by omega⟩, Out.bind_ok]
      rw [← hr]
      exact intC_iff.2 ⟨rfl, h⟩

/-- Both versions of the example give the same. -/
theorem C75_handcrafted (h : E.MetaHs) {k : Int} (hk : k ≤ 2147483647) (m : Int) :
    (callExample E (txt "fib") k = .ok m ↔ Handcrafted.fib k = .ok m) ∧
      (callExample E (txt "fact") k = .ok m ↔ Handcrafted.fact k = .ok m) ∧
      (callExample E (txt "times4") k = .ok m ↔ Handcrafted.times4 k = .ok m) ∧
      (callExample E (txt "times11") k = .ok m ↔ Handcrafted.times11 k = .ok m) := by
  refine ⟨?_, ?_, ?_, ?_⟩
  · rw [C75_fib h hk]
    constructor
    · rintro ⟨rfl, hf⟩
      exact limitOf_eq (fun n => fibIn_chain n k) (fibIn_big (k.toNat + 1) (by omega) hk hf) (by simp)
    · intro hf
      obtain ⟨n, hn⟩ := (limitOf_isLim (f := fun n => Handcrafted.fibIn n k) fun n => fibIn_chain n k).2
      exact fibIn_ok n hk (hn.trans hf)
  · rw [C75_fact h hk]
    constructor
    · rintro ⟨rfl, hf⟩
      exact limitOf_eq (fun n => factIn_chain n k) (factIn_big (k.toNat + 1) (by omega) hk hf) (by simp)
    · intro hf
      obtain ⟨n, hn⟩ := (limitOf_isLim (f := fun n => Handcrafted.factIn n k) fun n => factIn_chain n k).2
      exact factIn_ok n hk (hn.trans hf)
  · rw [C75_times4 h, Handcrafted.times4]
    simp only [Out.bind_eq_ok, intC_iff]
    constructor
    · rintro ⟨rfl, hf⟩
      have h1 := hf.1
      have h2 := hf.2
      exact ⟨k * 2, ⟨rfl, by omega, by omega⟩, by omega, by omega, by omega⟩
    · rintro ⟨x, ⟨rfl, -⟩, rfl, hf⟩
      exact ⟨by omega, by have := hf.1; omega, by have := hf.2; omega⟩
  · rw [C75_times11 h, Handcrafted.times11, intC_iff]

end Metaparse
