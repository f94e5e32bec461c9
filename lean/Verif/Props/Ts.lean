import Verif.Lemmas.Ts
import Verif.Props.Magres
/-
Property C72: `.ts` files.
-/
namespace Verif.Props
open Verif Spec Ts

/-- C72, for files in which only titles and confirmations have one of the three marks: whether it is a confirmation, and for reagent, product and test the
structures in order, each with its reaction coordinate, its rows of numbers and the vectors of its atoms, under their tags and long names, and nothing else. -/
theorem C72_partial (parts : List TsPart) (ls : List (List Str)) (h : List.Forall₂ TsPart.Lines parts ls) (hok : ∀ p ∈ parts, p.Ok) :
    ∃ (rd : Numeral → F64) (d : Dict Key PyVal), (∀ n : Numeral, n.Valid → n.InRange → F64.Nearest n.value (rd n)) ∧
      parse_ts_file ls.flatten = .ok (.dict d) ∧ TsPart.Says rd parts d := by
  obtain ⟨rd, fl, hr⟩ := readings
  obtain ⟨d, h1, h2⟩ := loop_parts (fun n x y => (hr n x y).1.1) parts ls h hok [] [] (says_nil rd)
  obtain ⟨fuel, h3, h4⟩ := h2 [] (ls.flatten.length + 1) (by simp)
  refine ⟨rd, d, fun n x y => (hr n x y).1.2, ?_, by simpa using h1⟩
  rw [List.append_nil] at h4
  rw [parse_ts_file, h4]
  cases fuel with
  | zero => simp at h3
  | succ fuel => rfl

/-- A last structure is read in the same way where the file ends without a blank line. -/
theorem C72_eof (parts : List TsPart) (ls : List (List Str)) (h : List.Forall₂ TsPart.Lines parts ls) (hok : ∀ p ∈ parts, p.Ok)
    (s : TsStruct) (hs : s.Ok) (title last : Str) (ht : s.Title title) (hb : Blank last) :
    parse_ts_file (ls.flatten ++ (title :: s.lines.map FLine.text)) = parse_ts_file (ls.flatten ++ (title :: (s.lines.map FLine.text ++ [last]))) := by
  obtain ⟨rd, fl, hr⟩ := readings
  obtain ⟨d, hd, -⟩ := struct_of (fun n x y => (hr n x y).1.1) hs ht
  obtain ⟨info, -, h2⟩ := loop_parts (fun n x y => (hr n x y).1.1) parts ls h hok [] [] (says_nil rd)
  obtain ⟨f1, l1, e1⟩ := h2 (title :: (s.lines.map FLine.text ++ [])) _ (Nat.lt_succ_self _)
  obtain ⟨f2, l2, e2⟩ := h2 (title :: (s.lines.map FLine.text ++ [last])) _ (Nat.lt_succ_self _)
  rw [loop_last hs ht (.inl rfl) (hd [] (fun l hl => by cases hl)) info f1 l1] at e1
  rw [loop_last hs ht (.inr ⟨last, rfl, hb⟩) (hd [last] (by simpa using hb)) info f2 l2] at e2
  rw [List.append_nil] at e1
  rw [parse_ts_file, parse_ts_file, e1, e2]

/-- Any other line with one of the three marks, as `TSTYPE` and a type of search other than the confirmation, is taken for a title, and the file, whatever
it is, is not read. -/
theorem C72_rejected (parts : List TsPart) (ls : List (List Str)) (h : List.Forall₂ TsPart.Lines parts ls) (hok : ∀ p ∈ parts, p.Ok)
    (line : Str) (rest : List Str) (h1 : ¬ Occurs (py"TSConfirmation") line) (h2 : TsPart.Marked line) (h3 : TsPart.Untitled line) :
    parse_ts_file (ls.flatten ++ line :: rest) = .error .typeError := by
  obtain ⟨rd, fl, hr⟩ := readings
  obtain ⟨info, -, h4⟩ := loop_parts (fun n x y => (hr n x y).1.1) parts ls h hok [] [] (says_nil rd)
  obtain ⟨f, l, e⟩ := h4 (line :: rest) _ (Nat.lt_succ_self _)
  rw [parse_ts_file, e]
  cases f with
  | zero => simp at l
  | succ f => rw [loop_reject h1 h2 h3]; rfl

/-- A first line that names the type of search. -/
def exTsType (type : Str) : Str := py" TSTYPE " ++ type ++ py"\n"

theorem untitled_type (l : Str) : TsPart.Untitled (py" TSTYPE " ++ l) := by
  intro g g' r k d e hg hg' hd
  have hsp : ∀ c, isSpace c = true → c ≠ 84 ∧ c ≠ 89 := by intro c hc; simp [isSpace] at hc; omega
  have hmark : k.mark.head? ≠ some 32 := by cases k <;> decide
  cases g with
  | nil => cases k <;> simp [TsKind.mark] at e
  | cons a g =>
    cases g with
    | cons b g =>
      simp at e
      exact (hsp b (hg b (by simp))).1 e.2.1.symm
    | nil =>
      cases k <;> simp [TsKind.mark] at e
      cases g' with
      | nil => simp at e; omega
      | cons c g' =>
        simp at e
        exact (hsp c (hg' c (by simp))).2 e.2.1.symm

/-- The property does not hold: no file that starts with the type of a search is read, unless it is a confirmation. -/
theorem C72_violated (type : Str) (rest : List Str) (h : ¬ Occurs (py"TSConfirmation") (exTsType type)) :
    parse_ts_file (exTsType type :: rest) = .error .typeError :=
  C72_rejected [] [] .nil (fun p hp => by cases hp) _ rest h ⟨.test, py" ", py"YPE " ++ type ++ py"\n", by simp [exTsType, TsKind.mark]⟩
    (by rw [exTsType, List.append_assoc]; exact untitled_type _)

example : ¬ Occurs (py"TSConfirmation") (exTsType (py"LSTMaximum")) := not_occurs _ _ (by decide +kernel)

/-! ### A file -/

def exTsLines : List FLine :=
  [.glob [(py"   ", neg (py"8") (py"25")), (py"  ", exDec (py"1") (py"0"))] (py"   ") (py" ") (py"E") (py"\n"),
   .glob [(py"   ", exDec (py"1") (py"0"))] (py"  ") (py" ") (py"h") (py"\n"),
   .glob [(py"   ", ⟨none, py"2", some (py"0"), some (true, some true, py"016")⟩)] (py"  ") (py" ") (py"h") (py"\n"),
   .atom (py" ") ⟨c!"H", [], none, none⟩ (py"      ") (py"1") (py"  ", exDec (py"0") (py"25")) (py"  ", neg (py"0") (py"5"))
     (py"  ", exInt (py"4")) (py"  ") (py" ") (py"R") (py"\n"),
   .atom (py" ") ⟨c!"H", [], none, none⟩ (py"      ") (py"1") (py"  ", exDec (py"1") (py"25")) (py"  ", neg (py"1") (py"5"))
     (py"  ", exInt (py"2")) (py"  ") (py" ") (py"F") (py"\n")]

def exTsStruct (k : TsKind) : TsStruct := ⟨k, exDec (py"0") (py"5"), exTsLines⟩

def exTsTitle (k : TsKind) : Str := py" " ++ k.mark ++ py"    1      0.5\n"

theorem exTs_title (k : TsKind) : (exTsStruct k).Title (exTsTitle k) :=
  ⟨py" ", py"    ", py"1", py"      ", py"\n", by cases k <;> decide +kernel, by decide, by decide, by decide +kernel, by decide, by decide, by decide, by decide⟩

theorem exTs_ok (k : TsKind) : (exTsStruct k).Ok := by
  have hc : (exDec (py"0") (py"5")).Valid ∧ (exDec (py"0") (py"5")).InRange := by decide +kernel
  refine ⟨hc.1, hc.2, ?_⟩
  intro l hl
  have hl : l ∈ exTsLines := hl
  have h1 : ∀ l ∈ exTsLines, l.Ok ∧ ∀ n ∈ l.numerals, n.InRange := by decide +kernel
  refine ⟨(h1 l hl).1, (h1 l hl).2, ?_⟩
  simp only [exTsLines, List.mem_cons, List.not_mem_nil, or_false] at hl
  rcases hl with rfl | rfl | rfl | rfl | rfl
  · show py"E" ≠ _; decide
  · show py"h" ≠ _; decide
  · show py"h" ≠ _; decide
  · trivial
  · trivial

def exTsParts : List TsPart := [.confirm, .struct (exTsStruct .reagent), .other, .struct (exTsStruct .test), .struct (exTsStruct .test)]

def exTsFile : List (List Str) :=
  [[exTsType (py"TSConfirmation")], exTsTitle .reagent :: (exTsLines.map FLine.text ++ [py" \n"]), [py"\n"],
    exTsTitle .test :: (exTsLines.map FLine.text ++ [py"\n"]), exTsTitle .test :: (exTsLines.map FLine.text ++ [py"\n"])]

theorem exTs_lines : List.Forall₂ TsPart.Lines exTsParts exTsFile := by
  refine .cons ⟨_, rfl, py" TSTYPE ", py"\n", by decide +kernel⟩ (.cons ⟨_, _, rfl, exTs_title _, by decide⟩ (.cons ⟨_, rfl, not_occurs _ _ (by decide +kernel), ?_⟩
    (.cons ⟨_, _, rfl, exTs_title _, by decide⟩ (.cons ⟨_, _, rfl, exTs_title _, by decide⟩ .nil))))
  rintro ⟨k, h⟩
  revert h
  cases k <;> exact not_occurs _ _ (by decide +kernel)

example : List.Forall₂ TsPart.Lines exTsParts exTsFile ∧ ∀ p ∈ exTsParts, p.Ok := by
  refine ⟨exTs_lines, ?_⟩
  intro p hp
  simp only [exTsParts, List.mem_cons, List.not_mem_nil, or_false] at hp
  rcases hp with rfl | rfl | rfl | rfl | rfl
  · trivial
  · exact exTs_ok _
  · trivial
  · exact exTs_ok _
  · exact exTs_ok _

example : (exTsStruct .product).Ok ∧ (exTsStruct .product).Title (exTsTitle .product) ∧ Blank (py"\n") := ⟨exTs_ok _, exTs_title _, by decide⟩

end Verif.Props
