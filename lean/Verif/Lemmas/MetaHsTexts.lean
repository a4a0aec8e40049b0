import Verif.Props.MetaHsEval
/-!
# The definitions of the example of `meta_hs`
-/

namespace Metaparse

open HsEval

theorem HsText.down {lax : Bool} {l l' : Nat} {b : Bool} {t r : List Chr} {e : HsExp} (h : HsText lax l' b t r e)
    (hl : l ≤ l') (hl' : l' ≤ 4) : HsText lax l b t r e := by
  obtain ⟨k, rfl⟩ : ∃ k, l' = l + k := ⟨l' - l, by omega⟩
  clear hl
  induction k generalizing l with
  | zero => exact h
  | succ k ih => exact .lift (by omega) (ih (l := l + 1) (by rw [show l + 1 + k = l + (k + 1) by omega]; exact h) (by omega))

theorem text_var (w ws r : String) (h1 : (beginsWith nameStart (txt w) && (txt w).all nameChar && txt w != txt "if" &&
    txt w != txt "then" && txt w != txt "else") = true) (h2 : AllSpace (txt ws))
    (h3 : beginsWith nameChar (txt ws ++ txt r) = false) (h4 : beginsWith spaceChar (txt r) = false)
    (h5 : ¬ txt "if" <+: txt w) : HsText false 4 true (txt w ++ txt ws) (txt r) (.var (txt w)) :=
  .var (isName_of_check h1) h2 h3 h4 fun _ => h5

theorem text_num (w ws r : String) (k : Int) (hk : decimal (txt w) = k) (h1 : txt w ≠ [])
    (h2 : ∀ c ∈ txt w, digitChar c = true) (h3 : decimal (txt w) ≤ 2147483647) (h4 : AllSpace (txt ws))
    (h5 : beginsWith digitChar (txt ws ++ txt r) = false) (h6 : beginsWith spaceChar (txt r) = false) :
    HsText false 4 true (txt w ++ txt ws) (txt r) (.num k) := by
  subst hk
  exact .num h1 h2 h3 h4 h5 h6

/-- `n` -/
def varN : HsExp := .var (txt "n")

/-- The body of `fib`. -/
def fibBody : HsExp := .cond (.op (txt "<") varN (.num 2)) (.num 1)
  (.op (txt "+") (.app (.var (txt "fib")) (.op (txt "-") varN (.num 2)))
    (.app (.var (txt "fib")) (.op (txt "-") varN (.num 1))))

/-- The body of `fact`. -/
def factBody : HsExp := .cond (.op (txt "<") varN (.num 1)) (.num 1)
  (.op (txt "*") varN (.app (.var (txt "fact")) (.op (txt "-") varN (.num 1))))

/-- The body of `times4`. -/
def times4Body : HsExp := .app (.var (txt "f")) (.app (.var (txt "f")) varN)

/-- The body of `times11`. -/
def times11Body : HsExp := .op (txt "*") varN (.var (txt "val"))

theorem name_n : IsName (txt "n") := isName_of_check (by decide)

theorem fib_def : HsDef false (txt "fib n = if n<2 then 1 else fib(n-2) + fib(n-1)") (txt "fib") [txt "n"] fibBody := by
  have hn := text_var "n" "" "<2 then 1 else fib(n-2) + fib(n-1)" (by decide) (by decide) (by decide) (by decide) (by decide)
  have h2 := text_num "2" " " "then 1 else fib(n-2) + fib(n-1)" 2 (by decide) (by decide) (by decide) (by decide) (by decide)
    (by decide) (by decide)
  have hc := HsText.op (l := 0) (o := txt "<") (ws := []) (by decide) (hn.down (by decide) (by decide)) (by decide)
    (h2.down (by decide) (by decide))
  have h1 := text_num "1" " " "else fib(n-2) + fib(n-1)" 1 (by decide) (by decide) (by decide) (by decide) (by decide)
    (by decide) (by decide)
  have hfa := text_var "fib" "" "(n-2) + fib(n-1)" (by decide) (by decide) (by decide) (by decide) (by decide)
  have hna := text_var "n" "" "-2) + fib(n-1)" (by decide) (by decide) (by decide) (by decide) (by decide)
  have h2a := text_num "2" "" ") + fib(n-1)" 2 (by decide) (by decide) (by decide) (by decide) (by decide)
    (by decide) (by decide)
  have hma := HsText.op (l := 1) (o := txt "-") (ws := []) (by decide) (hna.down (by decide) (by decide)) (by decide)
    (h2a.down (by decide) (by decide))
  have hba := HsText.brackets (lax := false) (ws := []) (ws' := txt " ") (r := txt "+ fib(n-1)") (by decide)
    (hma.down (l := 0) (by decide) (by decide)) (by decide) (by decide)
  have haa := HsText.app (hfa.down (l := 3) (by decide) (by decide)) hba
  have hfb := text_var "fib" "" "(n-1)" (by decide) (by decide) (by decide) (by decide) (by decide)
  have hnb := text_var "n" "" "-1)" (by decide) (by decide) (by decide) (by decide) (by decide)
  have h1b := text_num "1" "" ")" 1 (by decide) (by decide) (by decide) (by decide) (by decide)
    (by decide) (by decide)
  have hmb := HsText.op (l := 1) (o := txt "-") (ws := []) (by decide) (hnb.down (by decide) (by decide)) (by decide)
    (h1b.down (by decide) (by decide))
  have hbb := HsText.brackets (lax := false) (ws := []) (ws' := []) (r := []) (by decide)
    (hmb.down (l := 0) (by decide) (by decide)) (by decide) (by decide)
  have hab := HsText.app (hfb.down (l := 3) (by decide) (by decide)) hbb
  have hp := HsText.op (l := 1) (o := txt "+") (ws := txt " ") (by decide) (haa.down (by decide) (by decide)) (by decide)
    (hab.down (by decide) (by decide))
  have hall := HsText.cond (lax := false) (ws1 := txt " ") (ws2 := txt " ") (ws3 := txt " ") (by decide) (by decide) (by decide)
    (fun _ => by decide) hc (by decide) (h1.down (by decide) (by decide)) (by decide) (hp.down (l := 0) (by decide) (by decide))
  exact ⟨txt " ", txt "n = if n<2 then 1 else fib(n-2) + fib(n-1)", by decide, isName_of_check (by decide), by decide, by decide,
    .param (w := txt "n") (ws := txt " ") name_n (by decide) (by decide)
      (.body (ws := txt " ") (by decide) (hall.down (l := 0) (by decide) (by decide)))⟩

theorem fact_def : HsDef false (txt "fact n = if n<1 then 1 else n * fact(n-1)") (txt "fact") [txt "n"] factBody := by
  have hn := text_var "n" "" "<1 then 1 else n * fact(n-1)" (by decide) (by decide) (by decide) (by decide) (by decide)
  have h2 := text_num "1" " " "then 1 else n * fact(n-1)" 1 (by decide) (by decide) (by decide) (by decide) (by decide)
    (by decide) (by decide)
  have hc := HsText.op (l := 0) (o := txt "<") (ws := []) (by decide) (hn.down (by decide) (by decide)) (by decide)
    (h2.down (by decide) (by decide))
  have h1 := text_num "1" " " "else n * fact(n-1)" 1 (by decide) (by decide) (by decide) (by decide) (by decide)
    (by decide) (by decide)
  have hna := text_var "n" " " "* fact(n-1)" (by decide) (by decide) (by decide) (by decide) (by decide)
  have hfb := text_var "fact" "" "(n-1)" (by decide) (by decide) (by decide) (by decide) (by decide)
  have hnb := text_var "n" "" "-1)" (by decide) (by decide) (by decide) (by decide) (by decide)
  have h1b := text_num "1" "" ")" 1 (by decide) (by decide) (by decide) (by decide) (by decide)
    (by decide) (by decide)
  have hmb := HsText.op (l := 1) (o := txt "-") (ws := []) (by decide) (hnb.down (by decide) (by decide)) (by decide)
    (h1b.down (by decide) (by decide))
  have hbb := HsText.brackets (lax := false) (ws := []) (ws' := []) (r := []) (by decide)
    (hmb.down (l := 0) (by decide) (by decide)) (by decide) (by decide)
  have hab := HsText.app (hfb.down (l := 3) (by decide) (by decide)) hbb
  have hp := HsText.op (l := 2) (o := txt "*") (ws := txt " ") (by decide) (hna.down (by decide) (by decide)) (by decide) hab
  have hall := HsText.cond (lax := false) (ws1 := txt " ") (ws2 := txt " ") (ws3 := txt " ") (by decide) (by decide) (by decide)
    (fun _ => by decide) hc (by decide) (h1.down (by decide) (by decide)) (by decide) (hp.down (l := 0) (by decide) (by decide))
  exact ⟨txt " ", txt "n = if n<1 then 1 else n * fact(n-1)", by decide, isName_of_check (by decide), by decide, by decide,
    .param (w := txt "n") (ws := txt " ") name_n (by decide) (by decide)
      (.body (ws := txt " ") (by decide) (hall.down (l := 0) (by decide) (by decide)))⟩

theorem times4_def : HsDef false (txt "times4 n = f (f n)") (txt "times4") [txt "n"] times4Body := by
  have hf := text_var "f" " " "(f n)" (by decide) (by decide) (by decide) (by decide) (by decide)
  have hg := text_var "f" " " "n)" (by decide) (by decide) (by decide) (by decide) (by decide)
  have hn := text_var "n" "" ")" (by decide) (by decide) (by decide) (by decide) (by decide)
  have ha := HsText.app (hg.down (l := 3) (by decide) (by decide)) hn
  have hb := HsText.brackets (lax := false) (ws := []) (ws' := []) (r := []) (by decide)
    (ha.down (l := 0) (by decide) (by decide)) (by decide) (by decide)
  have hc := HsText.app (hf.down (l := 3) (by decide) (by decide)) hb
  exact ⟨txt " ", txt "n = f (f n)", by decide, isName_of_check (by decide), by decide, by decide,
    .param (w := txt "n") (ws := txt " ") name_n (by decide) (by decide)
      (.body (ws := txt " ") (by decide) (hc.down (l := 0) (by decide) (by decide)))⟩

theorem times11_def : HsDef false (txt "times11 n = n * val") (txt "times11") [txt "n"] times11Body := by
  have hn := text_var "n" " " "* val" (by decide) (by decide) (by decide) (by decide) (by decide)
  have hv := text_var "val" "" "" (by decide) (by decide) (by decide) (by decide) (by decide)
  have hp := HsText.op (l := 2) (o := txt "*") (ws := txt " ") (by decide) (hn.down (by decide) (by decide)) (by decide)
    (hv.down (by decide) (by decide))
  exact ⟨txt " ", txt "n = n * val", by decide, isName_of_check (by decide), by decide, by decide,
    .param (w := txt "n") (ws := txt " ") name_n (by decide) (by decide)
      (.body (ws := txt " ") (by decide) (hp.down (l := 0) (by decide) (by decide)))⟩

end Metaparse
