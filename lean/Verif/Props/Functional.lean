import Verif.Lemmas.XcDef
import Verif.Props.CellBlocks
import Verif.Props.Grids
/-
C102: definitions of functionals in `.param` files.
-/
namespace Verif.Props
open Verif Spec Cell

/-- C102.  A block that defines a functional, with comments and blank lines anywhere, gives the weights of the functionals under
`xc` and the parameters of the screening under `params`; each number is the double nearest to the one written, the two switches
are on exactly if `ON` is written in letters of any case, and of lines with the same name the last counts. -/
theorem C102 (l : Str) (blk : List Str) (last : Str) (kept : List Str) (is : List XcItem)
    (hl : OpensNamed l (py"xc_definition")) (hb : ∀ x ∈ blk, ¬ ClosesBlock x) (hlast : ClosesBlock last)
    (hk : KeptInline cellComments blk kept) (hrows : List.Forall₂ (fun l i => XcItem.Line l i) kept is) (hok : ∀ i ∈ is, i.Ok) :
    ∃ (fl : Numeral → F64) (xc params : List (Key × PyVal)), (∀ n : Numeral, n.Valid → n.InRange → F64.Nearest n.value (fl n)) ∧
      LastWins (is.flatMap (XcItem.weightEntry fl)) xc ∧ LastWins (is.flatMap (XcItem.paramEntry fl)) params ∧
      parse_cell_param_file (l :: (blk ++ [last])) =
        .ok (.list [.dict [(.str (py"xc_definition"), .dict [(.str (py"xc"), .dict xc), (.str (py"params"), .dict params)])]]) := by
  obtain ⟨_, fl, hrd⟩ := readings
  refine ⟨fl, _, _, fun n h1 h2 => (hrd n h1 h2).2.2, LineTab.lastWins _, LineTab.lastWins _, ?_⟩
  have hlp := XcDef.loop_rows (fl := fl) (fun n h1 h2 => (hrd n h1 h2).2.1) hrows hok [] []
  have hp : parserFor (py"xc_definition") = parse_xc_definition := rfl
  have hs : strip_comments kept = kept := (C20_initial _ _ (by decide) _).2 (XcDef.kept_again hk)
  have hr : (Block.remove_bounds ⟨0, 0, kept ++ [clean last]⟩ 0 1).rest = kept := by
    rw [Block.remove_bounds, Block.rest, XcDef.slice01, List.drop_zero]
  rw [parse_named hl hb hlast, stripped_block hlast hk, hp, parse_xc_definition]
  simp only [hr, hs, hlp]
  rfl

/-! ### The hypotheses can be met -/

def exXcItems : List XcItem :=
  [.weight (py"lda") (exDec (py"0") (py"75")), .weight (py"hf") (exInt (py"1")), .length (exDec (py"0") (py"8")), .ppd (py"On"), .func (py"erfc x"),
   .weight (py"lda") (exInt (py"1"))]

def exXcLines : List Str :=
  [py"  LDA 0.75", py"hf  1", py"NLXC_SCREENING_LENGTH 0.8", py"NLXC_PPD_INT On", py"nlxc_screening_function erfc x", py"lda 1"]

theorem keyName_word (w : Str) (h : w ≠ []) (ha : ∀ c ∈ w, isAlnum c = true) : KeyName w (Str.lower w) := by
  refine ⟨[w], ?_, by simp [Str.join]⟩
  have : Words isAlnum ([] ++ w ++ []) [w] := .cons (by simp) h ha (by simp) (.nil (by simp))
  simpa using this

theorem keyName_words2 (a b c : Str) (ha : a ≠ []) (hb : b ≠ []) (hc : c ≠ []) (h : ∀ x ∈ a ++ (b ++ c), isAlnum x = true) :
    KeyName (a ++ (95 :: (b ++ (95 :: c)))) (Str.lower (a ++ (95 :: (b ++ (95 :: c))))) := by
  refine ⟨[a, b, c], ?_, by simp [Str.join, Str.lower, lowerC, isUpper]⟩
  have : Words isAlnum ([] ++ a ++ ([95] ++ b ++ ([95] ++ c ++ []))) [a, b, c] :=
    .cons (by simp) ha (fun x hx => h x (by simp [hx])) (by simp [isAlnum, isAlpha, isLower, isUpper, isDigit])
      (.cons (by simp [isAlnum, isAlpha, isLower, isUpper, isDigit]) hb (fun x hx => h x (by simp [hx])) (by simp [isAlnum, isAlpha, isLower, isUpper, isDigit])
        (.cons (by simp [isAlnum, isAlpha, isLower, isUpper, isDigit]) hc (fun x hx => h x (by simp [hx])) (by simp) (.nil (by simp))))
  simpa using this

theorem exXcRows : List.Forall₂ (fun l i => XcItem.Line l i) exXcLines exXcItems := by
  refine .cons ⟨py"  ", py"LDA", py" ", rfl, by decide, by decide, by decide, keyName_word _ (by decide) (by decide), by decide, by decide⟩
    (.cons ⟨[], py"hf", py"  ", rfl, by decide, by decide, by decide, keyName_word _ (by decide) (by decide), by decide, by decide⟩
    (.cons ⟨[], py"NLXC_SCREENING_LENGTH", py" ", rfl, by decide, by decide, by decide,
      keyName_words2 (py"NLXC") (py"SCREENING") (py"LENGTH") (by decide) (by decide) (by decide) (by decide), by decide, by decide⟩
    (.cons ⟨[], py"NLXC_PPD_INT", py" ", rfl, by decide, by decide, by decide,
      keyName_words2 (py"NLXC") (py"PPD") (py"INT") (by decide) (by decide) (by decide) (by decide), by decide, by decide⟩
    (.cons ⟨[], py"nlxc_screening_function", py" ", rfl, by decide, by decide, by decide,
      keyName_words2 (py"nlxc") (py"screening") (py"function") (by decide) (by decide) (by decide) (by decide), by decide, by decide⟩
    (.cons ⟨[], py"lda", py" ", rfl, by decide, by decide, by decide, keyName_word _ (by decide) (by decide), by decide, by decide⟩ .nil)))))

theorem exXcOk : ∀ i ∈ exXcItems, i.Ok := by
  have v : ∀ n ∈ [exDec (py"0") (py"75"), exInt (py"1"), exDec (py"0") (py"8")], n.Valid ∧ n.InRange := by decide +kernel
  intro i hi
  simp only [exXcItems, List.mem_cons, List.not_mem_nil, or_false] at hi
  rcases hi with rfl | rfl | rfl | rfl | rfl | rfl
  · exact ⟨v _ (by simp), by decide⟩
  · exact ⟨v _ (by simp), by decide⟩
  · exact v _ (by simp)
  · exact ⟨by decide, by decide⟩
  · exact ⟨by decide, by decide⟩
  · exact ⟨v _ (by simp), by decide⟩

example : OpensNamed (py"%BLOCK XC_Definition\n") (py"xc_definition") ∧ ClosesBlock (py"%ENDBLOCK XC_Definition\n") ∧
    KeptInline cellComments [py"  LDA 0.75 ! x\n", py"hf  1\n", py"\n", py"NLXC_SCREENING_LENGTH 0.8\n", py"NLXC_PPD_INT On\n",
      py"# y\n", py"nlxc_screening_function erfc x\n", py"lda 1\n"] exXcLines ∧
    List.Forall₂ (fun l i => XcItem.Line l i) exXcLines exXcItems ∧ (∀ i ∈ exXcItems, i.Ok) := by
  refine ⟨opens_example _ _ (py"%BLOCK ") [] (py"XC_Definition") (py"\n") (by decide) (by decide) (by decide) (by decide)
      (by decide) (by decide) (by decide), ⟨[], py"%ENDBLOCK", py" XC_Definition\n", rfl, (by intro c hc; cases hc), by decide⟩,
    (C20_inline _ _ (by decide) _).1 (by decide +kernel), exXcRows, exXcOk⟩

end Verif.Props
