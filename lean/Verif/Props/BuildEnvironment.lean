import Verif.Lemmas.BuildEnvironment
/-!
# C98: `tools/build_environment.py`
-/

namespace Metaparse

open BuildEnv
open Gen (Str lit)

variable {σ τ : Type} {g : Git σ} {cmd : List Str} {head : σ → Str → Str} {tip : σ → Str → Str → Option Str}
  {remote : Str → Str → Option Str} {order : List (Str × Str) → List (Str × Str)}

theorem lastOnes_nodup (d : List (Str × Str)) : ((lastOnes d).map Prod.fst).Nodup := by
  induction d with
  | nil => exact List.nodup_nil
  | cons x d ih =>
    rw [lastOnes]
    split
    · exact ih
    · rename_i h
      rw [List.map_cons, List.nodup_cons]
      refine ⟨fun hm => h ?_, ih⟩
      have sub : ∀ (l : List (Str × Str)) y, y ∈ lastOnes l → y ∈ l := by
        intro l
        induction l with
        | nil => intro y hy; exact hy
        | cons z l ih =>
          intro y hy
          rw [lastOnes] at hy
          split at hy
          · exact List.mem_cons_of_mem _ (ih y hy)
          · rcases List.mem_cons.1 hy with rfl | hy
            · exact List.mem_cons_self ..
            · exact List.mem_cons_of_mem _ (ih y hy)
      obtain ⟨y, hy, e⟩ := List.mem_map.1 hm
      simp only [List.contains_iff_mem]
      exact e ▸ List.mem_map_of_mem (sub d y hy)

theorem loads_nodup {t : Str} {d : List (Str × Str)} (h : loads t = some d) : (d.map Prod.fst).Nodup := by
  unfold loads at h
  split at h
  · split at h
    · split at h
      · cases h; exact List.nodup_nil
      · cases h
    · rename_i t _ _ _
      cases e : readItems t.length t with
      | none => rw [e] at h; cases h
      | some r =>
        rw [e, Option.bind_some] at h
        split at h
        · cases h; exact lastOnes_nodup _
        · cases h
  · cases h

/-- The commands before those of the action. -/
def setup (cmd : List Str) (cwd out repo : Str) (keys : List Str) : List (Str × List Str) :=
  [(cwd, cmd ++ [lit "clone", repo, out]),
    (out, cmd ++ ([lit "submodule", lit "init", lit "--"] ++ keys.filter fun k => k ≠ [])),
    (out, cmd ++ [lit "submodule", lit "update"])]

/-- The script up to the action, when it raises no exception. -/
theorem build_start {out cwd repo action ref : Str} {s s' : State σ}
    (h : buildEnvironment g order out ⟨cmd, cwd⟩ repo action ref s = (some (), s')) :
    ∃ d s1, loads s.file = some d ∧ s1.file = s.file ∧
      s1.log = s.log ++ setup cmd cwd out repo ((order d).map Prod.fst) ∧
      (if action = lit "update" then (do
          write []
          let r ← heads g ⟨cmd, out⟩ ref (order d)
          write (dumps r) : Act σ Unit)
        else if action = lit "checkout" then checkouts g ⟨cmd, out⟩ (order d) else raised) s1 = (some (), s') := by
  unfold buildEnvironment at h
  obtain ⟨d, s0, e0, h0⟩ := bind_some h
  obtain ⟨hd, hs⟩ := Prod.mk.inj (show (loads s.file, s) = (some d, s0) from e0)
  subst hs
  obtain ⟨_, s1, e1, h1⟩ := bind_some h0
  obtain ⟨_, s2, e2, h2⟩ := bind_some h1
  obtain ⟨_, s3, e3, h3⟩ := bind_some h2
  refine ⟨d, s3, hd, ?_, ?_, h3⟩
  · have h1 := reads_run (g := g) (p := ⟨cmd, cwd⟩) (args := [lit "clone", repo, out]) s
    have h2 := reads_run (g := g) (p := ⟨cmd, out⟩)
      (args := [lit "submodule", lit "init", lit "--"] ++ ((order d).map Prod.fst).filter fun k => k ≠ []) s1
    have h3 := reads_run (g := g) (p := ⟨cmd, out⟩) (args := [lit "submodule", lit "update"]) s2
    rw [show ChildProcess.run g ⟨cmd, cwd⟩ [lit "clone", repo, out] s = _ from e1] at h1
    rw [show ChildProcess.run g ⟨cmd, out⟩ ([lit "submodule", lit "init", lit "--"] ++ _) s1 = _ from e2] at h2
    rw [show ChildProcess.run g ⟨cmd, out⟩ [lit "submodule", lit "update"] s2 = _ from e3] at h3
    exact h3.trans (h2.trans h1)
  · have l1 : s1.log = s.log ++ [(cwd, cmd ++ [lit "clone", repo, out])] := (congrArg (fun x => x.2.log) e1).symm
    have l2 : s2.log = s1.log ++ [(out, cmd ++ ([lit "submodule", lit "init", lit "--"] ++
      ((order d).map Prod.fst).filter fun k => k ≠ []))] := (congrArg (fun x => x.2.log) e2).symm
    have l3 : s3.log = s2.log ++ [(out, cmd ++ [lit "submodule", lit "update"])] := (congrArg (fun x => x.2.log) e3).symm
    rw [l3, l2, l1]
    simp [setup]

/-- C98: after `checkout` every repository the file names is at the commit the file names, the repository itself (the empty
name) included; the file is what it was, and nothing else was run. -/
theorem C98_checkout (W : Works g cmd head tip remote) (ho : ∀ l, (order l).Perm l) {out cwd repo ref : Str} {s s' : State σ}
    {d : List (Str × Str)} (hd : loads s.file = some d) (hr : Relative d)
    (h : buildEnvironment g order out ⟨cmd, cwd⟩ repo (lit "checkout") ref s = (some (), s')) :
    (∀ x ∈ d, head s'.world (join out x.1) = x.2) ∧ s'.file = s.file ∧
      s'.log = s.log ++ setup cmd cwd out repo ((order d).map Prod.fst) ++
        (order d).map fun x => (join out x.1, cmd ++ [lit "checkout", x.2]) := by
  obtain ⟨d', s1, hd', hf, hl, h⟩ := build_start h
  rw [hd] at hd'
  cases hd'
  rw [if_neg (by decide), if_pos rfl] at h
  have hn : ((order d).map Prod.fst).Nodup := (((ho d).map Prod.fst).nodup_iff).2 (loads_nodup hd)
  obtain ⟨c1, -, c3⟩ := checkouts_some W hn (fun x hx => hr x ((ho d).mem_iff.1 hx)) h
  refine ⟨fun x hx => c1 x ((ho d).mem_iff.2 hx), ?_, by rw [c3, hl]⟩
  have := reads_checkouts (g := g) (p := ⟨cmd, out⟩) (order d) s1
  rw [h] at this
  exact this.trans hf

/-- C98: after `update` the file names the same repositories, and for each of them the commit its remote repository has for the
reference. -/
theorem C98_update (W : Works g cmd head tip remote) (ho : ∀ l, (order l).Perm l) {out cwd repo ref : Str} {s s' : State σ}
    {d : List (Str × Str)} (hd : loads s.file = some d) (ht : ∀ x ∈ d, Text x.1) (hrem : ∀ k c, remote k ref = some c → Text c)
    (h : buildEnvironment g order out ⟨cmd, cwd⟩ repo (lit "update") ref s = (some (), s')) :
    ∃ d', loads s'.file = some d' ∧ (d'.map Prod.fst).Perm (d.map Prod.fst) ∧
      ∀ x ∈ d', remote (join out x.1) ref = some x.2 := by
  obtain ⟨d', s1, hd', hf, hl, h⟩ := build_start h
  rw [hd] at hd'
  cases hd'
  rw [if_pos rfl] at h
  obtain ⟨_, s2, -, h⟩ := bind_some h
  obtain ⟨r, s3, e3, h⟩ := bind_some h
  obtain ⟨hk, hv⟩ := heads_some W e3
  have hfile : s'.file = dumps r := (congrArg (fun x => x.2.file) h).symm
  have hp : (r.map Prod.fst).Perm (d.map Prod.fst) := hk ▸ (ho d).map Prod.fst
  have hD : Dict r := by
    refine ⟨hp.nodup_iff.2 (loads_nodup hd), fun x hx => ⟨?_, hrem _ _ (hv x hx)⟩⟩
    obtain ⟨y, hy, e⟩ := List.mem_map.1 (hp.mem_iff.1 (List.mem_map_of_mem hx))
    exact e ▸ ht y hy
  refine ⟨sorted r, by rw [hfile, loads_dumps hD], ((sorted_perm r).map Prod.fst).trans hp, fun x hx =>
    hv x ((sorted_perm r).mem_iff.1 hx)⟩

/-- C98: a `checkout` with the file an `update` has written, with any other git, in any other directory, brings every repository
to the commit that was the one of the remote repository at the time of the update. -/
theorem C98_reproducible (W : Works g cmd head tip remote) (ho : ∀ l, (order l).Perm l) {out cwd repo ref : Str}
    {s s' : State σ} {d : List (Str × Str)} (hd : loads s.file = some d) (ht : ∀ x ∈ d, Text x.1)
    (hrem : ∀ k c, remote k ref = some c → Text c) (hr : Relative d)
    (h : buildEnvironment g order out ⟨cmd, cwd⟩ repo (lit "update") ref s = (some (), s'))
    {g2 : Git τ} {head2 : τ → Str → Str} {tip2 : τ → Str → Str → Option Str} {remote2 : Str → Str → Option Str}
    {cmd2 : List Str} {order2 : List (Str × Str) → List (Str × Str)} {out2 cwd2 repo2 ref2 : Str} {t t' : State τ}
    (W2 : Works g2 cmd2 head2 tip2 remote2) (ho2 : ∀ l, (order2 l).Perm l) (hfile : t.file = s'.file)
    (h2 : buildEnvironment g2 order2 out2 ⟨cmd2, cwd2⟩ repo2 (lit "checkout") ref2 t = (some (), t')) :
    ∀ x ∈ d, remote (join out x.1) ref = some (head2 t'.world (join out2 x.1)) := by
  obtain ⟨d', hd', hp, hv⟩ := C98_update W ho hd ht hrem h
  have hr' : Relative d' := by
    intro x hx
    obtain ⟨y, hy, e⟩ := List.mem_map.1 (hp.mem_iff.1 (List.mem_map_of_mem hx))
    exact e ▸ hr y hy
  obtain ⟨hc, -⟩ := C98_checkout W2 ho2 (hfile ▸ hd') hr' h2
  intro x hx
  obtain ⟨y, hy, e⟩ := List.mem_map.1 (hp.mem_iff.2 (List.mem_map_of_mem hx))
  rw [← e, hv y hy, hc y hy]

/-- C98: whatever git does, `checkout` does not change the file, and neither does an action that does not exist. -/
theorem C98_file_kept {out cwd repo action ref : Str} (ha : action ≠ lit "update") (s : State σ) :
    (buildEnvironment g order out ⟨cmd, cwd⟩ repo action ref s).2.file = s.file := by
  refine Reads.bind (a := load) (fun s => rfl) (fun d => ?_) s
  refine reads_run.bind fun _ => reads_run.bind fun _ => reads_run.bind fun _ => ?_
  rw [if_neg ha]
  split
  · exact reads_checkouts _
  · exact reads_raised

/-- The full statement would be: a run that raises an exception leaves the file as it was. It is false of `update`: the file is
emptied before git is asked for the commits, and a `git fetch` that fails loses it. What is true: the file is as it was, or is
empty; it is as it was if one of the first three commands fails. -/
theorem C98_exception {out cwd repo action ref : Str} {s s' : State σ}
    (h : buildEnvironment g order out ⟨cmd, cwd⟩ repo action ref s = (none, s')) :
    s'.file = s.file ∨ (s'.file = [] ∧ action = lit "update" ∧ s.log.length + 3 < s'.log.length) := by
  by_cases ha : action ≠ lit "update"
  · have := C98_file_kept (g := g) (order := order) (out := out) (cwd := cwd) (repo := repo) (ref := ref) (cmd := cmd) ha s
    rw [h] at this
    exact .inl this
  obtain rfl : action = lit "update" := Classical.not_not.1 ha
  unfold buildEnvironment at h
  cases e0 : (load : Act σ _) s with
  | mk o0 s0 =>
  have f0 : s0 = s := (congrArg Prod.snd e0).symm
  subst f0
  cases o0 with
  | none => rw [bind_of_none e0] at h; cases h; exact .inl rfl
  | some d =>
  rw [bind_of_some e0] at h
  cases e1 : ChildProcess.run g ⟨cmd, cwd⟩ [lit "clone", repo, out] s0 with
  | mk o1 s1 =>
  have f1 : s1.file = s0.file := (congrArg (fun x => x.2.file) e1).symm
  have l1 : s1.log.length = s0.log.length + 1 := by
    rw [show s1.log = _ from (congrArg (fun x => x.2.log) e1).symm]; exact List.length_append
  cases o1 with
  | none => rw [bind_of_none e1] at h; cases h; exact .inl f1
  | some x1 =>
  rw [bind_of_some e1] at h
  cases e2 : ChildProcess.run g ⟨cmd, out⟩ ([lit "submodule", lit "init", lit "--"] ++
      ((order d).map Prod.fst).filter fun k => k ≠ []) s1 with
  | mk o2 s2 =>
  have f2 : s2.file = s1.file := (congrArg (fun x => x.2.file) e2).symm
  have l2 : s2.log.length = s1.log.length + 1 := by
    rw [show s2.log = _ from (congrArg (fun x => x.2.log) e2).symm]; exact List.length_append
  cases o2 with
  | none => 
    rw [bind_of_none (show ChildProcess.run g (ChildProcess.inDir ⟨cmd, cwd⟩ out) _ s1 = _ from e2)] at h
    cases h; exact .inl (f2.trans f1)
  | some x2 =>
  rw [bind_of_some (show ChildProcess.run g (ChildProcess.inDir ⟨cmd, cwd⟩ out) _ s1 = _ from e2)] at h
  cases e3 : ChildProcess.run g ⟨cmd, out⟩ [lit "submodule", lit "update"] s2 with
  | mk o3 s3 =>
  have f3 : s3.file = s2.file := (congrArg (fun x => x.2.file) e3).symm
  have l3 : s3.log.length = s2.log.length + 1 := by
    rw [show s3.log = _ from (congrArg (fun x => x.2.log) e3).symm]; exact List.length_append
  cases o3 with
  | none =>
    rw [bind_of_none (show ChildProcess.run g (ChildProcess.inDir ⟨cmd, cwd⟩ out) _ s2 = _ from e3)] at h
    cases h; exact .inl (f3.trans (f2.trans f1))
  | some x3 =>
  rw [bind_of_some (show ChildProcess.run g (ChildProcess.inDir ⟨cmd, cwd⟩ out) _ s2 = _ from e3), if_pos rfl] at h
  rw [bind_of_some (show (write [] : Act σ Unit) s3 = (some (), { s3 with file := [] }) from rfl)] at h
  cases e4 : heads g ⟨cmd, out⟩ ref (order d) { s3 with file := [] } with
  | mk o4 s4 =>
  have f4 : s4.file = [] := by
    have := reads_heads (g := g) (p := ⟨cmd, out⟩) (ref := ref) (order d) { s3 with file := [] }
    rw [e4] at this
    exact this
  cases o4 with
  | some r =>
    rw [bind_of_some (show heads g (ChildProcess.inDir ⟨cmd, cwd⟩ out) ref (order d) _ = _ from e4)] at h
    cases h
  | none =>
    rw [bind_of_none (show heads g (ChildProcess.inDir ⟨cmd, cwd⟩ out) ref (order d) _ = _ from e4)] at h
    cases h
    have l4 : s3.log.length < s'.log.length := heads_log (g := g) (p := ⟨cmd, out⟩) (ref := ref) (order d) (s := { s3 with file := [] }) e4
    exact .inr ⟨f4, rfl, by omega⟩

/-- C98: … and a lost file stays lost: every further run raises an exception before it runs anything. -/
theorem C98_lost {out cwd repo action ref : Str} {s : State σ} (h : s.file = []) :
    buildEnvironment g order out ⟨cmd, cwd⟩ repo action ref s = (none, s) := by
  unfold buildEnvironment
  refine bind_of_none ?_
  unfold load
  rw [h]
  rfl

/-! ### The directories -/

theorem names_slash (cur a b : Str) : names cur (a ++ '/' :: b) = names cur a ++ names [] b := by
  induction a generalizing cur with
  | nil => simp [names]
  | cons c a ih =>
    rw [List.cons_append, names, names]
    split
    · rw [ih, List.append_assoc]
    · exact ih _

/-- The directory of a repository: inside the directory of Boost, and absolute if this one is. -/
theorem C98_directory {a b : Str} (hb : b.head? ≠ some '/') :
    names [] (join a b) = names [] a ++ names [] b ∧ (a ≠ [] → (join a b).head? = a.head?) := by
  rw [join, if_neg hb]
  split
  · rename_i h
    rcases h with rfl | h
    · exact ⟨rfl, fun h => absurd rfl h⟩
    · obtain ⟨a', rfl⟩ : ∃ a', a = a' ++ ['/'] := by
        rcases List.eq_nil_or_concat a with rfl | ⟨a', c, rfl⟩
        · cases h
        · rw [List.concat_eq_append, List.getLast?_append] at h
          exact ⟨a', by rw [List.concat_eq_append]; simp_all⟩
      refine ⟨?_, fun _ => ?_⟩
      · rw [List.append_assoc]
        show names [] (a' ++ '/' :: b) = names [] (a' ++ '/' :: []) ++ names [] b
        rw [names_slash, names_slash]
        simp [names]
      · cases a' <;> rfl
  · refine ⟨names_slash [] a b, fun h => ?_⟩
    cases a with
    | nil => exact absurd rfl h
    | cons => rfl

example : names [] (join (lit "/tmp/boost") (lit "libs/mpl")) = [lit "tmp", lit "boost", lit "libs", lit "mpl"] := by decide +kernel

/-! ### A case -/

/-- A git that knows the commit of every directory; the last word of the command that fails is `bad`. -/
def toyGit (bad : Str) : Git (Str → Str) where
  exec w d args :=
    if args.getLast? = some bad then (none, w)
    else match args with
      | [_, a, x] =>
          if a = lit "checkout" then (some [], fun d' => if d' = d then x else w d')
          else if a = lit "show-ref" then (some (lit "1f82 refs/remotes/" ++ x ++ lit "\n"), w)
          else (some [], w)
      | _ => (some [], w)

theorem toyGit_works (bad : Str) : Works (toyGit bad) [lit "git"] (fun w d => w d) (fun _ _ _ => some (lit "1f82"))
    (fun _ _ => some (lit "1f82")) where
  checkout := by
    intro w d c out w' h
    unfold toyGit at h
    dsimp only [List.cons_append, List.nil_append] at h
    split at h
    · cases h
    · rw [if_pos rfl] at h
      obtain ⟨-, rfl⟩ := Prod.mk.inj h
      exact ⟨if_pos rfl, fun d' hd => if_neg hd⟩
  fetch := fun _ _ _ _ _ _ => rfl
  showRef := by
    intro w d r out w' h
    unfold toyGit at h
    dsimp only [List.cons_append, List.nil_append] at h
    split at h
    · cases h
    · rw [if_neg (by decide), if_pos rfl] at h
      obtain ⟨h, -⟩ := Prod.mk.inj h
      cases h
      exact ⟨lit "1f82", lit "refs/remotes/" ++ r ++ lit "\n", rfl, by decide, by decide, by simp [lit]⟩

/-- Two repositories. -/
def toyState : State (Str → Str) := ⟨fun _ => lit "0000", lit "{\n  \"\": \"ab12\", \n  \"libs/mpl\": \"cd34\"\n}", []⟩

theorem toy_loads : loads toyState.file = some [([], lit "ab12"), (lit "libs/mpl", lit "cd34")] := by rfl

theorem toy_relative : Relative [([], lit "ab12"), (lit "libs/mpl", lit "cd34")] := by
  intro x hx
  rcases List.mem_cons.1 hx with rfl | hx
  · decide
  · rw [List.mem_singleton.1 hx]; decide

/-- The script with this git. -/
def toyRun (bad action : Str) : Option Unit × State (Str → Str) :=
  buildEnvironment (toyGit bad) id (lit "boost") ⟨[lit "git"], lit "/"⟩ (lit "url") action (lit "origin/master") toyState

theorem toy_load : load toyState = (some [([], lit "ab12"), (lit "libs/mpl", lit "cd34")], toyState) := by
  unfold load
  rw [toy_loads]

theorem toy_checkout : (toyRun (lit "none") (lit "checkout")).1 = some () := by
  unfold toyRun buildEnvironment
  rw [bind_of_some toy_load]
  decide +kernel

theorem toy_update : (toyRun (lit "none") (lit "update")).1 = some () := by
  unfold toyRun buildEnvironment
  rw [bind_of_some toy_load]
  decide +kernel

theorem toy_lost : (toyRun (lit "fetch") (lit "update")).1 = none ∧ (toyRun (lit "fetch") (lit "update")).2.file = [] := by
  unfold toyRun buildEnvironment
  rw [bind_of_some toy_load]
  decide +kernel

theorem toyRun_eq {bad action : Str} {o : Option Unit} (h : (toyRun bad action).1 = o) :
    buildEnvironment (toyGit bad) id (lit "boost") ⟨[lit "git"], lit "/"⟩ (lit "url") action (lit "origin/master") toyState =
      (o, (toyRun bad action).2) := by
  rw [← h]
  rfl

/-- The library is checked out. -/
example : (toyRun (lit "none") (lit "checkout")).2.world (lit "boost/libs/mpl") = lit "cd34" ∧
    (toyRun (lit "none") (lit "checkout")).2.world (lit "boost/") = lit "ab12" := by
  have hc := (C98_checkout (toyGit_works _) (fun l => List.Perm.refl _) toy_loads toy_relative (toyRun_eq toy_checkout)).1
  generalize (toyRun (lit "none") (lit "checkout")).2 = st at hc ⊢
  have h1 := hc (lit "libs/mpl", lit "cd34") (List.mem_cons_of_mem _ (List.mem_cons_self ..))
  have h2 := hc ([], lit "ab12") (List.mem_cons_self ..)
  rw [show join (lit "boost") (lit "libs/mpl", lit "cd34").1 = lit "boost/libs/mpl" by decide] at h1
  rw [show join (lit "boost") (([] : Str), lit "ab12").1 = lit "boost/" by decide] at h2
  exact ⟨h1, h2⟩

theorem toy_text : ∀ x ∈ [(([] : Str), lit "ab12"), (lit "libs/mpl", lit "cd34")], Text x.1 := by
  intro x hx
  rcases List.mem_cons.1 hx with rfl | hx
  · intro c hc; cases hc
  · rw [List.mem_singleton.1 hx]; unfold Text; decide

/-- The file that is written. -/
example : ∃ d', loads (toyRun (lit "none") (lit "update")).2.file = some d' ∧ ∀ x ∈ d', x.2 = lit "1f82" := by
  obtain ⟨d', h1, -, h3⟩ := C98_update (toyGit_works _) (fun l => List.Perm.refl _) toy_loads toy_text
    (fun k c e => by cases e; unfold Text; decide) (toyRun_eq toy_update)
  exact ⟨d', h1, fun x hx => (Option.some.inj (h3 x hx)).symm⟩

/-- The file is lost when a `git fetch` fails, so the full statement is false. -/
theorem C98_file_lost : ∃ s', buildEnvironment (toyGit (lit "fetch")) id (lit "boost") ⟨[lit "git"], lit "/"⟩ (lit "url")
    (lit "update") (lit "origin/master") toyState = (none, s') ∧ toyState.file ≠ [] ∧ s'.file = [] :=
  ⟨_, toyRun_eq toy_lost.1, by decide, toy_lost.2⟩

/-- The file after the update, somewhere else. -/
def toyCopy : State (Str → Str) := ⟨fun _ => lit "0000", lit "{\n  \"\": \"1f82\", \n  \"libs/mpl\": \"1f82\"\n}", []⟩

theorem toy_dumps : dumps [([], lit "1f82"), (lit "libs/mpl", lit "1f82")] = toyCopy.file := by
  unfold dumps
  rw [show List.mergeSort [(([] : Str), lit "1f82"), (lit "libs/mpl", lit "1f82")] (fun x y => keyLe x.1 y.1) =
    [([], lit "1f82"), (lit "libs/mpl", lit "1f82")] from List.mergeSort_of_pairwise (by decide)]
  decide +kernel

theorem toy_copy : toyCopy.file = (toyRun (lit "none") (lit "update")).2.file := by
  rw [← toy_dumps]
  unfold toyRun buildEnvironment
  rw [bind_of_some toy_load]
  rfl

theorem toyCopy_load : load toyCopy = (some [([], lit "1f82"), (lit "libs/mpl", lit "1f82")], toyCopy) := by
  unfold load
  rw [show loads toyCopy.file = some [([], lit "1f82"), (lit "libs/mpl", lit "1f82")] by rfl]

/-- The script with another git and the file of the update. -/
def toyRun2 : Option Unit × State (Str → Str) :=
  buildEnvironment (toyGit (lit "none")) id (lit "other") ⟨[lit "git"], lit "/"⟩ (lit "url") (lit "checkout")
    (lit "origin/master") toyCopy

theorem toyRun2_some : toyRun2.1 = some () := by
  unfold toyRun2 buildEnvironment
  rw [bind_of_some toyCopy_load]
  decide +kernel

/-- What was recorded is checked out in another directory. -/
example : some (lit "1f82") = some (toyRun2.2.world (join (lit "other") (lit "libs/mpl"))) := by
  have h := toyRun2_some
  unfold toyRun2 at h ⊢
  generalize e : buildEnvironment (toyGit (lit "none")) id (lit "other") ⟨[lit "git"], lit "/"⟩ (lit "url") (lit "checkout")
    (lit "origin/master") toyCopy = r at h ⊢
  obtain ⟨o, t'⟩ := r
  cases (h : o = some ())
  have hu := toyRun_eq toy_update
  have hf := toy_copy
  generalize (toyRun (lit "none") (lit "update")).2 = s' at hu hf
  have hx : (lit "libs/mpl", lit "cd34") ∈ [(([] : Str), lit "ab12"), (lit "libs/mpl", lit "cd34")] :=
    List.mem_cons_of_mem _ (List.mem_cons_self ..)
  exact C98_reproducible (toyGit_works _) (fun l => List.Perm.refl _) toy_loads toy_text
    (fun k c e => by cases e; unfold Text; decide) toy_relative hu (toyGit_works _) (fun l => List.Perm.refl _) hf e _ hx

/-- `checkout` leaves the file alone, and so does an action that is not known. -/
example : (toyRun (lit "none") (lit "checkout")).2.file = toyState.file ∧ (toyRun [] (lit "delete")).2.file = toyState.file := by
  unfold toyRun
  exact ⟨C98_file_kept (by decide) _, C98_file_kept (by decide) _⟩

example : let s' := (toyRun (lit "fetch") (lit "update")).2
    s'.file = toyState.file ∨ (s'.file = [] ∧ lit "update" = lit "update" ∧ 3 < s'.log.length) :=
  C98_exception (s := toyState) (toyRun_eq toy_lost.1)

/-- After the file was lost nothing works. -/
example (action : Str) : buildEnvironment (toyGit (lit "none")) id (lit "boost") ⟨[lit "git"], lit "/"⟩ (lit "url") action
    (lit "origin/master") ⟨fun _ => lit "0000", [], []⟩ = (none, ⟨fun _ => lit "0000", [], []⟩) := C98_lost rfl

end Metaparse
