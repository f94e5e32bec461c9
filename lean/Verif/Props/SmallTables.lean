import Verif.Lemmas.ErrFile
import Verif.Lemmas.Labelled
import Verif.Props.Header
/-
C60 and C61: `.err` and `.hug` files.
-/
namespace Verif.Props
open Verif Verif.Spec

/-! ### C60 -/

/-- C60.  The text before the first line naming the trace stack is the message, each line after it an entry of the
stack, both without surrounding whitespace. -/
theorem C60_err (pre : List Str) (mark : Str) (post : List Str) (msg : Str) (stack : List Str)
    (hp : ∀ l ∈ pre, ¬ Occurs (py"Current trace stack") l) (hm : Occurs (py"Current trace stack") mark)
    (h1 : Stripped pre.flatten msg) (h2 : List.Forall₂ Stripped post stack) :
    parse_err_file (pre ++ mark :: post) = .ok (errInfo msg stack) := by
  rw [parse_err_file, err_message pre mark post [] hp hm]
  show Except.ok _ = _
  rw [List.nil_append, (stripped_iff _ _).2 h1]
  have : post.map (fun l => PyVal.str (Str.strip l)) = stack.map PyVal.str := by
    induction h2 with
    | nil => rfl
    | cons h _ ih => rw [List.map_cons, List.map_cons, (stripped_iff _ _).2 h, ih]
  rw [this, errInfo]

/-- C60.  Every error file that names the trace stack is split in this way. -/
theorem C60_err_total (lines : List Str) (h : ∃ l ∈ lines, Occurs (py"Current trace stack") l) :
    ∃ pre mark post msg stack, lines = pre ++ mark :: post ∧ (∀ l ∈ pre, ¬ Occurs (py"Current trace stack") l) ∧
      Occurs (py"Current trace stack") mark ∧ Stripped pre.flatten msg ∧ List.Forall₂ Stripped post stack ∧
      parse_err_file lines = .ok (errInfo msg stack) := by
  obtain ⟨pre, mark, post, e, hp, hm⟩ : ∃ pre mark post, lines = pre ++ mark :: post ∧
      (∀ l ∈ pre, ¬ Occurs (py"Current trace stack") l) ∧ Occurs (py"Current trace stack") mark := by
    clear * - h
    induction lines with
    | nil => obtain ⟨l, hl, -⟩ := h; cases hl
    | cons x lines ih =>
      by_cases hx : Occurs (py"Current trace stack") x
      · exact ⟨[], x, lines, rfl, by simp, hx⟩
      · obtain ⟨l, hl, ho⟩ := h
        rcases List.mem_cons.1 hl with rfl | hl
        · exact absurd ho hx
        · obtain ⟨pre, mark, post, rfl, h1, h2⟩ := ih ⟨l, hl, ho⟩
          refine ⟨x :: pre, mark, post, rfl, ?_, h2⟩
          intro y hy
          rcases List.mem_cons.1 hy with rfl | hy
          · exact hx
          · exact h1 y hy
  have h2 : List.Forall₂ Stripped post (post.map Str.strip) := by
    rw [List.forall₂_map_right_iff]
    exact List.forall₂_same.2 fun l _ => (stripped_iff _ _).1 rfl
  have h1 : Stripped pre.flatten (Str.strip pre.flatten) := (stripped_iff _ _).1 rfl
  exact ⟨pre, mark, post, _, _, e, hp, hm, h1, h2, e ▸ C60_err pre mark post _ _ hp hm h1 h2⟩

/-- C60.  A file that does not name the trace stack raises `StopIteration`. -/
theorem C60_no_stack (lines : List Str) (h : ∀ l ∈ lines, ¬ Occurs (py"Current trace stack") l) :
    parse_err_file lines = .error .stopIteration := by
  rw [parse_err_file, err_none lines [] h]
  rfl

example : parse_err_file [py"Error with dsytrf \n", py" in nlpot\n", py"Current trace stack:\n", py" nlpot\n", py" castep \n"] =
    .ok (errInfo (py"Error with dsytrf \n in nlpot") [py"nlpot", py"castep"]) :=
  C60_err [py"Error with dsytrf \n", py" in nlpot\n"] _ _ _ _
    (by intro l hl; simp only [List.mem_cons, List.not_mem_nil, or_false] at hl
        rcases hl with rfl | rfl <;> exact not_occurs _ _ (by decide +kernel))
    ((Str.contains_iff _ _).1 (by decide +kernel)) ((stripped_iff _ _).1 (by decide +kernel))
    (.cons ((stripped_iff _ _).1 (by decide +kernel)) (.cons ((stripped_iff _ _).1 (by decide +kernel)) .nil))

example := C60_err_total [py"no", py"Current trace stack:"] ⟨_, List.mem_cons_of_mem _ (List.mem_cons_self ..), (Str.contains_iff _ _).1 (by decide +kernel)⟩

example : parse_err_file [py"Error: disk full\n"] = .error .stopIteration :=
  C60_no_stack _ (by intro l hl; simp only [List.mem_cons, List.not_mem_nil, or_false] at hl
                     subst hl; exact not_occurs _ _ (by decide +kernel))

/-! ### C61 -/

theorem hug_labelled : labelledPat [] [] Hug.cols = .ok Hug.ROW_RE := by decide +kernel

set_option maxRecDepth 20000 in
theorem hug_skip (l : Str) (h : NoDigit l) : Hug.ROW_RE.search l = none := by
  cases hm : Hug.ROW_RE.search l with
  | none => rfl
  | some m =>
    obtain ⟨a, b, e, hl⟩ := search_found hm
    have : Hug.ROW_RE.re = lfs 1 3 (AtomRe.LF 4) := by decide +kernel
    rw [this] at hl
    obtain ⟨c, hc, hd⟩ := lfs_digit hl
    exact absurd hd (h c (by rw [e]; simp [hc]))

/-- C61.  The first four numbers of each row are the compression, temperature, pressure and energy, in the order of the
rows; lines without digits are ignored, and so is what follows the four numbers. -/
theorem C61_hug (lines : List Str) (rows : List (List Numeral)) (h : Interleaved NoDigit NumLine lines rows)
    (hok : ∀ r ∈ rows, RowOk 4 r) :
    ∃ rd : Numeral → F64, (∀ r ∈ rows, Reads rd r) ∧
      parse_hug_file lines =
        .ok (.dict (columnTable rd [py"compression", py"temperature", py"pressure", py"energy"] rows)) := by
  obtain ⟨rd, _, hrd⟩ := readings
  refine ⟨rd, fun r hr n hn => (hrd n ((hok r hr).2 n hn).1 ((hok r hr).2 n hn).2).1.2, ?_⟩
  have hr := hugRows_labelled hug_labelled hug_skip h [] fun r hr => ⟨(hok r hr).1, fun n hn => ((hok r hr).2 n hn).1⟩
  rw [colsOf, if_pos rfl] at hr
  rw [parse_hug_file, hr]
  show (fix_data_types (colsOf Hug.cols rows) _ >>= _) = _
  rw [fix_table (rd := rd) (by decide +kernel) rows fun r hr n hn => (hrd n ((hok r hr).2 n hn).1 ((hok r hr).2 n hn).2).1.1]
  rfl

/-- Two rows of a Hugoniot. -/
def exHug : List (List Numeral) :=
  [[exDec (py"0") (py"99"), exDec (py"36") (py"31"), exDec (py"0") (py"41"), exDec (py"0") (py"15")],
   [exDec (py"0") (py"94"), exDec (py"40") (py"07"), exDec (py"0") (py"63"), exDec (py"1") (py"62")]]

example : ∃ rd : Numeral → F64, (∀ r ∈ exHug, Reads rd r) ∧
    parse_hug_file [py"  0.99   36.31  0.41   0.15  <-- cTPE\n", py"\n", py"  0.94   40.07  0.63   1.62  <-- cTPE\n"] =
      .ok (.dict (columnTable rd [py"compression", py"temperature", py"pressure", py"energy"] exHug)) :=
  C61_hug _ _ (.row ⟨⟨_, _, rfl, by decide⟩, [py"<--", py"cTPE"], (fields_iff _ _).2 (by decide +kernel)⟩
    (.skip (by decide +kernel) (.row ⟨⟨_, _, rfl, by decide⟩, [py"<--", py"cTPE"], (fields_iff _ _).2 (by decide +kernel)⟩ .nil)))
    (by decide +kernel)

/-- The blank is needed: a row that starts in the first column is dropped. -/
theorem C61_needs_blank :
    Fields (py"0.99 36.31 0.41 0.15") ([exDec (py"0") (py"99"), exDec (py"36") (py"31"), exDec (py"0") (py"41"), exDec (py"0") (py"15")].map Numeral.text) ∧
    parse_hug_file [py"0.99 36.31 0.41 0.15"] = .ok (.dict []) :=
  ⟨(fields_iff _ _).2 (by decide +kernel), by decide +kernel⟩

end Verif.Props
