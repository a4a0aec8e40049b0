import Verif.Spec.BuildEnvironment
/-!
# Lemmas about `tools/build_environment.py`
-/

namespace Metaparse.BuildEnv

open Gen (Str lit)

/-! ### JSON -/

theorem hexVal_hexChar : ∀ n < 16, hexVal (hexChar n) = some n := by decide

theorem readString_plain {c : Char} {t : Str} (h1 : c ≠ '"') (h2 : c ≠ '\\') (h : 32 ≤ c.toNat) :
    readString (c :: t) = (readString t).map fun r => (c :: r.1, r.2) := by
  rw [readString]
  · rw [if_neg (by omega)]
  · intro h; exact h1 h
  · intro a b c d t h; exact absurd h h2
  · intro a b h; exact absurd h h2
  · intro h; exact absurd h h2

theorem readString_u {n : Nat} {t : Str} (h : n < 65536) :
    readString (lit "\\u" ++ [hexChar (n / 4096 % 16), hexChar (n / 256 % 16), hexChar (n / 16 % 16), hexChar (n % 16)] ++ t) =
      (readString t).map fun r => (Char.ofNat n :: r.1, r.2) := by
  change readString ('\\' :: 'u' :: _ :: _ :: _ :: _ :: t) = _
  rw [readString, hexVal_hexChar _ (Nat.mod_lt _ (by decide)), hexVal_hexChar _ (Nat.mod_lt _ (by decide)),
    hexVal_hexChar _ (Nat.mod_lt _ (by decide)), hexVal_hexChar _ (Nat.mod_lt _ (by decide))]
  dsimp only
  rw [show 4096 * (n / 4096 % 16) + 256 * (n / 256 % 16) + 16 * (n / 16 % 16) + n % 16 = n by omega]

theorem readString_escape {c : Char} {t : Str} (h : c.toNat < 65536) :
    readString (escape c ++ t) = (readString t).map fun r => (c :: r.1, r.2) := by
  unfold escape
  split
  · rename_i e; subst e; rfl
  split
  · rename_i e; subst e; rfl
  split
  · rename_i h1 h2 h3
    exact readString_plain h1 h2 h3.1
  split
  · rename_i e; subst e; rfl
  split
  · rename_i e; subst e; rfl
  split
  · rename_i e; subst e; rfl
  split
  · rename_i e
    have : c = Char.ofNat 8 := by rw [← e, Char.ofNat_toNat]
    subst this; rfl
  split
  · rename_i e
    have : c = Char.ofNat 12 := by rw [← e, Char.ofNat_toNat]
    subst this; rfl
  · rw [readString_u h, Char.ofNat_toNat]

theorem readString_quote {s t : Str} (h : Text s) : readString (s.flatMap escape ++ '"' :: t) = some (s, t) := by
  induction s with
  | nil => rfl
  | cons c s ih =>
    rw [List.flatMap_cons, List.append_assoc, readString_escape (h c (List.mem_cons_self ..)),
      ih (fun x hx => h x (List.mem_cons_of_mem _ hx))]
    rfl

theorem readItem_item {x : Str × Str} {ws t : Str} (h1 : Text x.1) (h2 : Text x.2) (hw : ∀ u, skip (ws ++ '"' :: u) = '"' :: u) :
    readItem (ws ++ (item x ++ t)) = some (x, t) := by
  have e : ws ++ (item x ++ t) = ws ++ '"' :: (x.1.flatMap escape ++ '"' :: ':' :: ' ' :: '"' :: (x.2.flatMap escape ++ '"' :: t)) := by
    simp [item, quote, lit]
  rw [readItem, e, hw]
  change ((readString (x.1.flatMap escape ++ '"' :: ':' :: ' ' :: '"' :: (x.2.flatMap escape ++ '"' :: t))).bind fun k => _) = _
  rw [readString_quote h1, Option.bind_some]
  change ((readString (x.2.flatMap escape ++ '"' :: t)).map fun v => ((x.1, v.1), v.2)) = _
  rw [readString_quote h2]
  rfl

theorem readItems_items {d : List (Str × Str)} (h : ∀ x ∈ d, Text x.1 ∧ Text x.2) (hne : d ≠ []) :
    ∀ (n : Nat) (ws : Str), d.length ≤ n → (∀ u, skip (ws ++ '"' :: u) = '"' :: u) →
      readItems n (ws ++ ((lit ", \n  ").intercalate (d.map item) ++ lit "\n}")) = some (d, []) := by
  induction d with
  | nil => exact absurd rfl hne
  | cons x d ih =>
    intro n ws hn hw
    obtain ⟨n, rfl⟩ : ∃ m, n = m + 1 := ⟨n - 1, by simp at hn; omega⟩
    have hx := h x (List.mem_cons_self ..)
    cases d with
    | nil =>
      have e : (lit ", \n  ").intercalate ([x].map item) = item x := by simp [List.intercalate]
      rw [e, readItems, readItem_item hx.1 hx.2 hw]
      rfl
    | cons y d =>
      have e : (lit ", \n  ").intercalate ((x :: y :: d).map item) ++ lit "\n}" =
          item x ++ (',' :: (lit " \n  " ++ ((lit ", \n  ").intercalate ((y :: d).map item) ++ lit "\n}"))) := by
        simp [List.intercalate, lit]
      rw [e, readItems, readItem_item hx.1 hx.2 hw, Option.bind_some]
      have hs : ∀ t, skip (',' :: t) = ',' :: t := fun t => by simp [skip]
      rw [hs]
      change ((readItems n (lit " \n  " ++ ((lit ", \n  ").intercalate ((y :: d).map item) ++ lit "\n}"))).map
        fun r => (x :: r.1, r.2)) = _
      rw [ih (fun z hz => h z (List.mem_cons_of_mem _ hz)) (by simp) n (lit " \n  ") (by simp at hn ⊢; omega)
        (fun u => rfl)]
      rfl

theorem lastOnes_of_nodup {d : List (Str × Str)} (h : (d.map Prod.fst).Nodup) : lastOnes d = d := by
  induction d with
  | nil => rfl
  | cons x d ih =>
    rw [List.map_cons, List.nodup_cons] at h
    rw [lastOnes, if_neg (by simpa using h.1), ih h.2]

theorem item_length (x : Str × Str) : 0 < (item x).length := by simp [item, quote]

theorem items_length (d : List (Str × Str)) : d.length ≤ ((lit ", \n  ").intercalate (d.map item)).length := by
  induction d with
  | nil => simp
  | cons x d ih =>
    have := item_length x
    cases d with
    | nil => simp [List.intercalate]; omega
    | cons y d =>
      have e : (lit ", \n  ").intercalate ((x :: y :: d).map item) =
          item x ++ (lit ", \n  " ++ (lit ", \n  ").intercalate ((y :: d).map item)) := by simp [List.intercalate]
      rw [e, List.length_append, List.length_append]
      simp only [List.length_cons] at ih ⊢
      omega

/-- The items in the order of the file. -/
def sorted (d : List (Str × Str)) : List (Str × Str) := d.mergeSort fun x y => keyLe x.1 y.1

theorem sorted_perm (d : List (Str × Str)) : (sorted d).Perm d := List.mergeSort_perm ..

theorem loads_dumps {d : List (Str × Str)} (h : Dict d) : loads (dumps d) = some (sorted d) := by
  unfold dumps
  cases hd : d with
  | nil => simp [sorted]; rfl
  | cons x l =>
    rw [← hd]
    have hne : sorted d ≠ [] := by
      intro e
      have := (sorted_perm d).length_eq
      rw [e, hd] at this
      cases this
    have hi : d.isEmpty = false := by rw [hd]; rfl
    rw [hi, if_neg (by simp)]
    change loads (lit "{\n  " ++ (lit ", \n  ").intercalate ((sorted d).map item) ++ lit "\n}") = _
    have ht : ∀ y ∈ sorted d, Text y.1 ∧ Text y.2 := fun y hy => h.2 y ((sorted_perm d).mem_iff.1 hy)
    have hr := readItems_items ht hne (lit "\n  " ++ ((lit ", \n  ").intercalate ((sorted d).map item) ++ lit "\n}")).length
      (lit "\n  ") (by have := items_length (sorted d); simp only [List.length_append]; omega) (fun u => rfl)
    unfold loads
    rw [List.append_assoc]
    change (match skip (lit "\n  " ++ ((lit ", \n  ").intercalate ((sorted d).map item) ++ lit "\n}")) with
      | '}' :: u => if skip u = [] then some [] else none
      | _ => (readItems (lit "\n  " ++ ((lit ", \n  ").intercalate ((sorted d).map item) ++ lit "\n}")).length
          (lit "\n  " ++ ((lit ", \n  ").intercalate ((sorted d).map item) ++ lit "\n}"))).bind fun r =>
        if skip r.2 = [] then some (lastOnes r.1) else none) = _
    rw [hr]
    have hq : ∃ u, skip (lit "\n  " ++ ((lit ", \n  ").intercalate ((sorted d).map item) ++ lit "\n}")) = '"' :: u := by
      cases hs : sorted d with
      | nil => exact absurd hs hne
      | cons y l => 
        cases l with
        | nil => exact ⟨_, by simp [List.intercalate, item, quote, lit, skip]; rfl⟩
        | cons z l => exact ⟨_, by simp [List.intercalate, item, quote, lit, skip]; rfl⟩
    obtain ⟨u, hu⟩ := hq
    rw [hu]
    have hnd : ((sorted d).map Prod.fst).Nodup := (((sorted_perm d).map Prod.fst).nodup_iff).2 h.1
    simp [lastOnes_of_nodup hnd, skip]

/-! ### Directories -/

theorem join_inj {a k k' : Str} (h : k.head? ≠ some '/') (h' : k'.head? ≠ some '/') (e : join a k = join a k') : k = k' := by
  unfold join at e
  rw [if_neg h, if_neg h'] at e
  split at e
  · exact List.append_cancel_left e
  · exact (List.cons.inj (List.append_cancel_left e)).2

/-! ### The pieces of the script -/

variable {σ : Type} {g : Git σ}

theorem run_eq {p : ChildProcess} {args : List Str} {s : State σ} {out : Option Str} {w : σ}
    (h : g.exec s.world p.cwd (p.cmd ++ args) = (out, w)) :
    p.run g args s = (out, ⟨w, s.file, s.log ++ [(p.cwd, p.cmd ++ args)]⟩) := by
  unfold ChildProcess.run
  rw [h]

theorem run_file {p : ChildProcess} {args : List Str} {s : State σ} : (p.run g args s).2.file = s.file := rfl

theorem bind_some {α β : Type} {a : Act σ α} {f : α → Act σ β} {s s' : State σ} {y : β} (h : (a >>= f) s = (some y, s')) :
    ∃ x s1, a s = (some x, s1) ∧ f x s1 = (some y, s') := by
  change Act.bind a f s = _ at h
  unfold Act.bind at h
  split at h
  · rename_i x s1 e
    exact ⟨x, s1, e, h⟩
  · cases h

theorem bind_of_some {α β : Type} {a : Act σ α} {f : α → Act σ β} {s s1 : State σ} {x : α} (h : a s = (some x, s1)) :
    (a >>= f) s = f x s1 := by
  change Act.bind a f s = _
  unfold Act.bind
  rw [h]

theorem bind_of_none {α β : Type} {a : Act σ α} {f : α → Act σ β} {s s1 : State σ} (h : a s = (none, s1)) :
    (a >>= f) s = (none, s1) := by
  change Act.bind a f s = _
  unfold Act.bind
  rw [h]

/-- A piece that does not write the file. -/
def Reads {α : Type} (a : Act σ α) : Prop := ∀ s, (a s).2.file = s.file

theorem Reads.bind {α β : Type} {a : Act σ α} {f : α → Act σ β} (ha : Reads a) (hf : ∀ x, Reads (f x)) : Reads (a >>= f) := by
  intro s
  cases e : a s with
  | mk x s1 =>
    have := ha s
    rw [e] at this
    cases x with
    | none => rw [bind_of_none e]; exact this
    | some x => rw [bind_of_some e, hf x s1]; exact this

theorem reads_run {p : ChildProcess} {args : List Str} : Reads (p.run g args) := fun _ => rfl

theorem reads_pure {α : Type} {x : α} : Reads (pure x : Act σ α) := fun _ => rfl

theorem reads_raised {α : Type} : Reads (raised : Act σ α) := fun _ => rfl

theorem reads_headOfMaster {p : ChildProcess} {ref : Str} : Reads (headOfMaster g p ref) := by
  refine reads_run.bind fun _ => reads_run.bind fun out => ?_
  split
  · exact reads_pure
  · exact reads_raised

theorem reads_heads {p : ChildProcess} {ref : Str} (l : List (Str × Str)) : Reads (heads g p ref l) := by
  induction l with
  | nil => exact reads_pure
  | cons x l ih => exact reads_headOfMaster.bind fun _ => ih.bind fun _ => reads_pure

theorem reads_checkouts {p : ChildProcess} (l : List (Str × Str)) : Reads (checkouts g p l) := by
  induction l with
  | nil => exact reads_pure
  | cons x l ih => exact reads_run.bind fun _ => ih

/-- A piece that only adds to the commands. -/
def Adds {α : Type} (a : Act σ α) : Prop := ∀ s, s.log.length ≤ (a s).2.log.length

theorem Adds.bind {α β : Type} {a : Act σ α} {f : α → Act σ β} (ha : Adds a) (hf : ∀ x, Adds (f x)) : Adds (a >>= f) := by
  intro s
  cases e : a s with
  | mk x s1 =>
    have := ha s
    rw [e] at this
    cases x with
    | none => rw [bind_of_none e]; exact this
    | some x => rw [bind_of_some e]; exact Nat.le_trans this (hf x s1)

theorem run_adds {p : ChildProcess} {args : List Str} (s : State σ) : (p.run g args s).2.log.length = s.log.length + 1 :=
  List.length_append

theorem adds_run {p : ChildProcess} {args : List Str} : Adds (p.run g args) := fun s => by
  rw [run_adds]; omega

theorem headOfMaster_log {p : ChildProcess} {ref : Str} (s : State σ) :
    s.log.length < (headOfMaster g p ref s).2.log.length := by
  unfold headOfMaster
  have h := run_adds (g := g) (p := p) (args := [lit "fetch"]) s
  cases e : p.run g [lit "fetch"] s with
  | mk x s1 =>
    rw [e] at h
    dsimp only at h
    cases x with
    | none => rw [bind_of_none e]; dsimp only; omega
    | some x =>
      rw [bind_of_some e]
      have h2 := (adds_run (g := g) (p := p) (args := [lit "show-ref", ref])).bind (f := fun out =>
        match firstWord out with
        | some w => (pure w : Act σ Str)
        | none => raised) (fun out => by
          split
          · intro s; exact Nat.le_refl _
          · intro s; exact Nat.le_refl _) s1
      exact Nat.lt_of_lt_of_le (by omega) h2

theorem heads_log {p : ChildProcess} {ref : Str} (l : List (Str × Str)) {s s' : State σ}
    (h : heads g p ref l s = (none, s')) : s.log.length < s'.log.length := by
  induction l generalizing s with
  | nil => cases h
  | cons x l ih =>
    unfold heads at h
    have h1 := headOfMaster_log (g := g) (p := p.inSubdir x.1) (ref := ref) s
    cases e : headOfMaster g (p.inSubdir x.1) ref s with
    | mk o s1 =>
      rw [e] at h1
      dsimp only at h1
      cases o with
      | none => rw [bind_of_none e] at h; cases h; exact h1
      | some y =>
        rw [bind_of_some e] at h
        cases e2 : heads g p ref l s1 with
        | mk o2 s2 =>
          cases o2 with
          | none => rw [bind_of_none e2] at h; cases h; have := ih e2; omega
          | some r => rw [bind_of_some e2] at h; cases h

variable {cmd : List Str} {head : σ → Str → Str} {tip : σ → Str → Str → Option Str} {remote : Str → Str → Option Str}

theorem firstWord_eq {c rest : Str} (h : c ≠ []) (hs : ∀ x ∈ c, isSpace x = false) : firstWord (c ++ ' ' :: rest) = some c := by
  unfold firstWord
  cases c with
  | nil => exact absurd rfl h
  | cons x c =>
    have h1 : (x :: c ++ ' ' :: rest).dropWhile isSpace = x :: c ++ ' ' :: rest := by
      rw [List.cons_append, List.dropWhile_cons, hs x (List.mem_cons_self ..)]
      rfl
    have h2 : (x :: c ++ ' ' :: rest).takeWhile (fun c => !isSpace c) = x :: c := by
      rw [List.takeWhile_append_of_pos (fun a ha => by simp [hs a ha])]
      rw [List.takeWhile_cons]
      have : isSpace ' ' = true := by decide
      simp [this]
    rw [h1, h2]

theorem headOfMaster_some (W : Works g cmd head tip remote) {d ref h : Str} {s s' : State σ}
    (e : headOfMaster g ⟨cmd, d⟩ ref s = (some h, s')) : remote d ref = some h := by
  unfold headOfMaster at e
  obtain ⟨_, s1, e1, e⟩ := bind_some e
  obtain ⟨out, s2, e2, e⟩ := bind_some e
  unfold ChildProcess.run at e1 e2
  cases hw : g.exec s.world d (cmd ++ [lit "fetch"]) with
  | mk o w =>
  rw [hw] at e1
  obtain ⟨ho, hs1⟩ := Prod.mk.inj e1
  cases hw2 : g.exec s1.world d (cmd ++ [lit "show-ref", ref]) with
  | mk o2 w2 =>
  rw [hw2] at e2
  obtain ⟨ho2, hs2⟩ := Prod.mk.inj e2
  dsimp only at ho ho2
  subst ho
  subst ho2
  obtain ⟨c, rest, ht, hc, hsp, rfl⟩ := W.showRef _ _ _ _ _ hw2
  have hf := W.fetch _ _ _ _ hw ref
  rw [← hs1] at ht
  rw [← hf]
  rw [firstWord_eq hc hsp] at e
  obtain ⟨e, -⟩ := Prod.mk.inj e
  exact ht.trans e

theorem heads_some (W : Works g cmd head tip remote) {out ref : Str} : ∀ {l r : List (Str × Str)} {s s' : State σ},
    heads g ⟨cmd, out⟩ ref l s = (some r, s') →
      r.map Prod.fst = l.map Prod.fst ∧ ∀ x ∈ r, remote (join out x.1) ref = some x.2 := by
  intro l
  induction l with
  | nil =>
    intro r s s' e
    cases e
    exact ⟨rfl, fun x hx => by cases hx⟩
  | cons x l ih =>
    intro r s s' e
    obtain ⟨h, s1, e1, e⟩ := bind_some e
    obtain ⟨r', s2, e2, e⟩ := bind_some e
    cases e
    obtain ⟨ih1, ih2⟩ := ih e2
    refine ⟨by rw [List.map_cons, List.map_cons, ih1], fun y hy => ?_⟩
    rcases List.mem_cons.1 hy with rfl | hy
    · exact headOfMaster_some W e1
    · exact ih2 y hy

theorem checkouts_some (W : Works g cmd head tip remote) {out : Str} : ∀ {l : List (Str × Str)} {s s' : State σ},
    (l.map Prod.fst).Nodup → Relative l → checkouts g ⟨cmd, out⟩ l s = (some (), s') →
      (∀ x ∈ l, head s'.world (join out x.1) = x.2) ∧
      (∀ d, (∀ x ∈ l, d ≠ join out x.1) → head s'.world d = head s.world d) ∧
      s'.log = s.log ++ l.map fun x => (join out x.1, cmd ++ [lit "checkout", x.2]) := by
  intro l
  induction l with
  | nil =>
    intro s s' _ _ e
    cases e
    exact ⟨fun x hx => (List.not_mem_nil hx).elim, fun _ _ => rfl, by simp⟩
  | cons x l ih =>
    intro s s' hn hr e
    obtain ⟨o, s1, e1, e⟩ := bind_some e
    rw [List.map_cons, List.nodup_cons] at hn
    unfold ChildProcess.run at e1
    cases hw : g.exec s.world (join out x.1) (cmd ++ [lit "checkout", x.2]) with
    | mk o' w =>
    change ((g.exec s.world (join out x.1) (cmd ++ [lit "checkout", x.2])).1, _) = _ at e1
    rw [hw] at e1
    obtain ⟨ho, hs1⟩ := Prod.mk.inj e1
    dsimp only at ho
    subst ho
    obtain ⟨hc, hk⟩ := W.checkout _ _ _ _ _ hw
    obtain ⟨i1, i2, i3⟩ := ih hn.2 (fun y hy => hr y (List.mem_cons_of_mem _ hy)) e
    have hne : ∀ y ∈ l, join out x.1 ≠ join out y.1 := by
      intro y hy he
      have := join_inj (hr x (List.mem_cons_self ..)) (hr y (List.mem_cons_of_mem _ hy)) he
      exact hn.1 (this ▸ List.mem_map_of_mem hy)
    have hw1 : s1.world = w := by
      rw [← hs1]
      change (g.exec s.world (join out x.1) (cmd ++ [lit "checkout", x.2])).2 = w
      rw [hw]
    refine ⟨fun y hy => ?_, fun d hd => ?_, ?_⟩
    · rcases List.mem_cons.1 hy with rfl | hy
      · rw [i2 _ hne, hw1, hc]
      · exact i1 y hy
    · rw [i2 d (fun y hy => hd y (List.mem_cons_of_mem _ hy)), hw1, hk d (hd x (List.mem_cons_self ..))]
    · rw [i3, ← hs1]
      simp [ChildProcess.inSubdir, ChildProcess.inDir]

end Metaparse.BuildEnv
