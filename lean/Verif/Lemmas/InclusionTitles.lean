/-
Compilers to begin with, and what the headers are called after.
-/
import Verif.Lemmas.InclusionStart
import Verif.Spec.InclusionUse

namespace Metaparse.Inclusion

/-- A compiler that defines nothing. -/
def plain : Env where
  compiler := fun _ => none
  config := fun _ => none
  feature := fun _ => false
  pulls := fun _ => false

/-- One with templates for string literals. -/
def literal : Env where
  compiler := fun m => if m = 0 then some (some 1) else none
  config := fun _ => none
  feature := fun _ => true
  pulls := fun _ => false

def empty : State := { mac := fun _ => none, config := false, seen := [] }

/-- The user asks for C++98. -/
def old : State :=
  { mac := fun m => if m = 2 then some ⟨some 1998, [], []⟩ else none, config := false, seen := [] }

theorem before_empty (env : Env) (h1 : ∀ m, env.compiler m ≠ some none) (h2 : ∀ m, env.config m ≠ some none) :
    Before env empty where
  unseen := rfl
  unset := fun m d h => by cases h
  short := fun m v _ h => by cases h
  compilerNumbers := fun m _ _ _ => h1 m
  configNumbers := fun m _ _ _ => h2 m

theorem before_plain : Before plain empty := before_empty _ (fun _ h => nomatch h) (fun _ h => nomatch h)

theorem before_literal : Before literal empty := before_empty _ (fun m => by
  unfold literal
  dsimp only
  by_cases h : m = 0
  · rw [if_pos h]; decide
  · rw [if_neg h]; decide) (fun _ h => nomatch h)

theorem before_old : Before plain old where
  unseen := rfl
  unset := fun m d h => by
    unfold old at h
    dsimp only at h
    by_cases e : m = 2
    · rw [if_pos e] at h
      cases h
      subst e
      exact ⟨⟨"BOOST_METAPARSE_STD", by decide +kernel, rfl⟩, 1998, rfl⟩
    · rw [if_neg e] at h; cases h
  short := fun m v hm h => by
    unfold old at h
    dsimp only at h
    by_cases e : m = 2
    · subst e
      have : macroNames[2]? = some "BOOST_METAPARSE_STD" := rfl
      rw [this] at hm
      exact absurd hm (by decide +kernel)
    · rw [if_neg e] at h; cases h
  compilerNumbers := fun _ _ _ _ h => nomatch h
  configNumbers := fun _ _ _ _ h => nomatch h

theorem titles_right : (titleList.all fun t => match headers[t.1]?, nameNames[t.2]? with
    | some hd, some x => decide (x ++ ".hpp" = "::".intercalate (hd.path.filter (· ≠ "fwd"))) ||
        decide ((t.1, t.2) = (277, 310)) || decide ((t.1, t.2) = (278, 311))
    | _, _ => false) = true := by
  decide +kernel

theorem title_called {h n : Nat} (hm : (h, n) ∈ titleList) :
    ∃ hd x, headers[h]? = some hd ∧ nameNames[n]? = some x ∧ CalledAfter hd.path x := by
  have k := List.all_eq_true.mp titles_right _ hm
  dsimp only at k
  cases e1 : headers[h]? with
  | none => rw [e1] at k; cases k
  | some hd =>
    cases e2 : nameNames[n]? with
    | none => rw [e1, e2] at k; cases k
    | some x =>
      rw [e1, e2] at k
      dsimp only at k
      rw [Bool.or_eq_true, Bool.or_eq_true] at k
      refine ⟨hd, x, rfl, rfl, ?_⟩
      rcases k with (k | k) | k
      · exact ⟨x, of_decide_eq_true k, .inl rfl⟩
      · have e := of_decide_eq_true k
        cases e
        have f1 : headers[277]? = some h277 := rfl
        have f2 : nameNames[310]? = some "boost::metaparse::v1::sequence_apply#" := rfl
        rw [f1] at e1
        rw [f2] at e2
        cases e1
        cases e2
        exact ⟨"boost::metaparse::v1::sequence_apply", by decide +kernel, .inr (by decide +kernel)⟩
      · have e := of_decide_eq_true k
        cases e
        have f1 : headers[278]? = some h278 := rfl
        have f2 : nameNames[311]? = some "boost::metaparse::sequence_apply#" := rfl
        rw [f1] at e1
        rw [f2] at e2
        cases e1
        cases e2
        exact ⟨"boost::metaparse::sequence_apply", by decide +kernel, .inr (by decide +kernel)⟩

theorem titles_all : (headers.zipIdx.all fun p => !isPublic p.1 || unnamed.contains p.1.path ||
    titleList.any (·.1 == p.2)) = true := by
  decide +kernel

theorem mem_zipIdx {h : Nat} {hd : Header} (e : headers[h]? = some hd) : (hd, h) ∈ headers.zipIdx := by
  rw [List.mem_iff_getElem?]
  exact ⟨h, by rw [List.getElem?_zipIdx, e]; simp⟩

/-- Every header but a few is called after a name. -/
theorem titled {h : Nat} {hd : Header} (e : headers[h]? = some hd) (hp : isPublic hd = true)
    (hu : hd.path ∉ unnamed) : ∃ n x, (h, n) ∈ titleList ∧ nameNames[n]? = some x ∧ CalledAfter hd.path x := by
  have k := List.all_eq_true.mp titles_all _ (mem_zipIdx e)
  dsimp only at k
  rw [hp, Bool.or_eq_true, Bool.or_eq_true] at k
  rcases k with (k | k) | k
  · cases k
  · exact (hu (List.contains_iff_mem.mp k)).elim
  · obtain ⟨⟨i, n⟩, hm, hi⟩ := List.any_eq_true.mp k
    have hi : i = h := eq_of_beq hi
    subst hi
    obtain ⟨hd', x, e1, e2, e3⟩ := title_called hm
    rw [e] at e1
    cases e1
    exact ⟨n, x, hm, e2, e3⟩

theorem offers_all : (headers.zipIdx.all fun p => offers.all fun o => !decide (o.1 = p.1.path) ||
    offerList.any fun t => decide (t.1 = p.2 ∧ macroNames[t.2]? = some o.2)) = true := by
  decide +kernel

theorem offered {h : Nat} {hd : Header} (e : headers[h]? = some hd) {x : String} (ho : (hd.path, x) ∈ offers) :
    ∃ m, (h, m) ∈ offerList ∧ macroNames[m]? = some x := by
  have k := List.all_eq_true.mp (List.all_eq_true.mp offers_all _ (mem_zipIdx e)) _ ho
  dsimp only at k
  rw [decide_eq_true rfl] at k
  obtain ⟨⟨i, m⟩, hm, hi⟩ := List.any_eq_true.mp k
  obtain ⟨h1, h2⟩ := of_decide_eq_true hi
  dsimp only at h1 h2
  subst h1
  exact ⟨m, hm, h2⟩

theorem offers_all11 : (headers.zipIdx.all fun p => offers11.all fun o => !decide (o.1 = p.1.path) ||
    offerList11.any fun t => decide (t.1 = p.2 ∧ macroNames[t.2]? = some o.2)) = true := by
  decide +kernel

theorem offered11 {h : Nat} {hd : Header} (e : headers[h]? = some hd) {x : String} (ho : (hd.path, x) ∈ offers11) :
    ∃ m, (h, m) ∈ offerList11 ∧ macroNames[m]? = some x := by
  have k := List.all_eq_true.mp (List.all_eq_true.mp offers_all11 _ (mem_zipIdx e)) _ ho
  dsimp only at k
  rw [decide_eq_true rfl] at k
  obtain ⟨⟨i, m⟩, hm, hi⟩ := List.any_eq_true.mp k
  obtain ⟨h1, h2⟩ := of_decide_eq_true hi
  dsimp only at h1 h2
  subst h1
  exact ⟨m, hm, h2⟩

theorem apart98 : (headers.all fun hd => !hd.path.contains "cpp98" || (pieces hd.pre ++ pieces hd.body).all fun n =>
    (entry nameOwner11 n).isNone && (entry nameOwner14 n).isNone) = true := by
  decide +kernel

theorem apart11 : (headers.all fun hd => !(hd.path.contains "cpp11" || hd.path.contains "cpp14") ||
    (pieces hd.pre ++ pieces hd.body).all fun n => (entry nameOwner98 n).isNone) = true := by
  decide +kernel

theorem apart14 : (headers.all fun hd => !hd.path.contains "cpp14" || (pieces hd.pre ++ pieces hd.body).all fun n =>
    (entry nameOwner11 n).isNone) = true := by
  decide +kernel

theorem undefs_helper : (headers.all fun hd => (undefs hd.pre ++ undefs hd.body).all isHelper) = true := by
  decide +kernel

theorem entry_lt {l i f : Nat} (h : entry l i = some f) : f < 1023 := by
  unfold entry at h
  have := Nat.mod_lt (l >>> (10 * i)) (show 0 < 1024 by decide)
  generalize l >>> (10 * i) % 1024 = g at h this
  dsimp only at h
  split at h
  · cases h
  · injection h with h
    omega

section good

variable {md : Mode} (hp : md.Proper)
include hp

theorem good_title {h n : Nat} (hm : (h, n) ∈ titleList) : ∃ w, md.look h = some w ∧ w.decl.testBit n = true := by
  have g := good_proper hp
  unfold good at g
  rw [Bool.and_eq_true, Bool.and_eq_true, Bool.and_eq_true, Bool.and_eq_true] at g
  have k := List.all_eq_true.mp g.1.1.1.2 _ hm
  split at k
  · rename_i w e
    exact ⟨w, e, k⟩
  · cases k

theorem good_offer {h m : Nat} (hm : (h, m) ∈ offerList) : ∃ w, md.look h = some w ∧ w.on.testBit m = true := by
  have g := good_proper hp
  unfold good at g
  rw [Bool.and_eq_true, Bool.and_eq_true, Bool.and_eq_true, Bool.and_eq_true] at g
  have k := List.all_eq_true.mp g.1.1.2 _ hm
  split at k
  · rename_i w e
    exact ⟨w, e, k⟩
  · cases k

theorem good_offer11 (h11 : md.is11 = true) {h m : Nat} (hm : (h, m) ∈ offerList11) :
    ∃ w, md.look h = some w ∧ w.on.testBit m = true := by
  have g := good_proper hp
  unfold good at g
  rw [Bool.and_eq_true, Bool.and_eq_true, Bool.and_eq_true, Bool.and_eq_true, h11, Bool.not_true, Bool.false_or] at g
  have k := List.all_eq_true.mp g.1.2 _ hm
  split at k
  · rename_i w e
    exact ⟨w, e, k⟩
  · cases k

theorem good_whole : ∃ w, md.look 309 = some w ∧ (∀ h n, (h, n) ∈ titleList → h ≠ 316 → w.decl.testBit n = true) ∧
    (∀ h m, (h, m) ∈ offerList → h ≠ 311 → w.on.testBit m = true) ∧ w.on.testBit 362 = false := by
  have g := good_proper hp
  unfold good at g
  rw [Bool.and_eq_true, Bool.and_eq_true, Bool.and_eq_true, Bool.and_eq_true] at g
  have k := g.2
  split at k
  · rename_i w e
    rw [Bool.and_eq_true, Bool.and_eq_true] at k
    refine ⟨w, e, fun h n hm hn => ?_, fun h n hm hn => ?_, by simpa using k.2⟩
    · have z := List.all_eq_true.mp k.1.1 _ hm
      dsimp only at z
      rw [decide_eq_false hn] at z
      exact z
    · have z := List.all_eq_true.mp k.1.2 _ hm
      dsimp only at z
      rw [decide_eq_false hn] at z
      exact z
  · cases k

end good

end Metaparse.Inclusion
