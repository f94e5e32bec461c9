import Verif.Lemmas.XrdSf
import Verif.Props.Grids
/-
C74: `.xrd_sf` files.
-/
namespace Verif.Props
open Verif Verif.Spec

/-- C74: an `.xrd_sf` file gives every structure factor as a list of complex numbers, the two parts being those of its two columns, wherever these stand,
and the reciprocal lattice vectors in the same order; in whatever order the names are iterated. -/
theorem C74 (order : List Str → List Str) (ho : ∀ l, (order l).Perm l) (cols : List XrdCol) (hc : XrdCol.Ok cols) (rows : List XrdRow)
    (hr : ∀ r ∈ rows, r.Ok cols.length) (first : Str) (hf : ∃ a b c, Fields first (a :: b :: c :: cols.map XrdCol.word))
    (ls : List Str) (h : List.Forall₂ XrdRow.Line ls rows) :
    ∃ rd : Numeral → F64, (∀ n : Numeral, n.Valid → n.InRange → F64.Nearest n.value (rd n)) ∧
      ∃ d, parse_xrd_sf_file order (first :: ls) = .ok (.dict d) ∧ d.Perm (xrdTable rd cols rows) := by
  obtain ⟨_, rd, hrd⟩ := readings
  refine ⟨rd, fun n h1 h2 => (hrd n h1 h2).2.2, ?_⟩
  obtain ⟨p, heads, d, -, h1, h2⟩ := XrdSf.file_of (rd := rd) order ho cols hc rows hr first hf ls h
    (fun r h' n hn => (hrd n ((hr r h').2.2.2 n hn).1 ((hr r h').2.2.2 n hn).2).2.1) []
  rw [List.append_nil] at h1
  exact ⟨_, by rw [h1]; rfl, h2⟩

/-- C74: a line that is not such a row, for instance a blank one, is not passed over: the file is rejected. -/
theorem C74_reject (order : List Str → List Str) (ho : ∀ l, (order l).Perm l) (cols : List XrdCol) (hc : XrdCol.Ok cols) (rows : List XrdRow)
    (hr : ∀ r ∈ rows, r.Ok cols.length) (first : Str) (hf : ∃ a b c, Fields first (a :: b :: c :: cols.map XrdCol.word))
    (ls : List Str) (h : List.Forall₂ XrdRow.Line ls rows) (bad : Str) (hb : NoDigit bad) (more : List Str) :
    parse_xrd_sf_file order (first :: (ls ++ bad :: more)) = .error .attributeError := by
  obtain ⟨_, rd, hrd⟩ := readings
  obtain ⟨p, heads, d, hp, h1, -⟩ := XrdSf.file_of (rd := rd) order ho cols hc rows hr first hf ls h
    (fun r h' n hn => (hrd n ((hr r h').2.2.2 n hn).1 ((hr r h').2.2.2 n hn).2).2.1) (bad :: more)
  rw [h1, XrdSf.rows, XrdSf.row_bad hp hb]
  rfl

/-! ### Example -/

def exXrdCols : List XrdCol := [⟨py"F_PAW", false⟩, ⟨py"F_core", true⟩, ⟨py"F_PAW", true⟩, ⟨py"F_core", false⟩]
def exXrdHead : Str := py"   h   k   l   Re(F_PAW)  Im(F_core)   Im(F_PAW)  Re(F_core)\n"
def exXrdRows : List XrdRow :=
  [⟨[exInt (py"0"), exInt (py"0"), exInt (py"0")], [exDec (py"112") (py"000000"), exDec (py"80") (py"0"), exDec (py"0") (py"5"), exDec (py"7") (py"25")]⟩,
   ⟨[exInt (py"1"), ⟨some true, py"1", none, none⟩, exInt (py"2")], [exDec (py"42") (py"458193"), exDec (py"37") (py"4"), exDec (py"1") (py"5"), exDec (py"2") (py"25")]⟩]
def exXrdLines : List Str :=
  [py"   0   0   0  112.000000   80.0  0.5  7.25\n", py"1 -1   2   42.458193   37.4 1.5 2.25\n"]

theorem exXrd_ok : XrdCol.Ok exXrdCols ∧ (∀ r ∈ exXrdRows, r.Ok exXrdCols.length) ∧
    (∃ a b c, Fields exXrdHead (a :: b :: c :: exXrdCols.map XrdCol.word)) ∧ List.Forall₂ XrdRow.Line exXrdLines exXrdRows := by
  refine ⟨?_, by decide +kernel, ⟨_, _, _, (fields_iff _ (py"h" :: py"k" :: py"l" :: exXrdCols.map XrdCol.word)).2 (by decide +kernel)⟩,
    .cons ⟨[], (fields_iff _ _).2 (by decide +kernel)⟩ (.cons ⟨[], (fields_iff _ _).2 (by decide +kernel)⟩ .nil)⟩
  unfold XrdCol.Ok DosPart.Ident
  decide +kernel

example := C74 id (fun _ => .refl _) _ exXrd_ok.1 _ exXrd_ok.2.1 _ exXrd_ok.2.2.1 _ exXrd_ok.2.2.2
example := C74_reject List.reverse (fun l => l.reverse_perm) _ exXrd_ok.1 _ exXrd_ok.2.1 _ exXrd_ok.2.2.1 _ exXrd_ok.2.2.2 (py"\n")
  (by unfold NoDigit; decide +kernel) []

end Verif.Props
