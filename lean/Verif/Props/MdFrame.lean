import Verif.Lemmas.MdFrameSays
/-
Property C19: the contents of a trajectory frame.
-/
namespace Verif.Props
open Verif Spec MdGeom

/-- C19: a frame is recovered field by field.  For any lines -- blank ones, time, rows of numbers with a
tag, vectors of atoms with a tag, in any order -- whose numbers are in the range of a double, the
dictionary returned says what the lines say and nothing else, each number being the double nearest
to the one printed. -/
theorem C19_frame (ls : List FLine) (hl : ∀ l ∈ ls, l.Ok)
    (hv : ∀ l ∈ ls, ∀ n ∈ l.numerals, |n.value| < (2 ^ 54 - 1) * 2 ^ 970) :
    ∃ (val : Numeral → F64) (d : Dict Key PyVal),
      (∀ l ∈ ls, ∀ n ∈ l.numerals, F64.Nearest n.value (val n)) ∧
      parse_md_geom_frame (ls.map FLine.text) = .ok (.dict d) ∧ SaysFrame val ls d := by
  let val : Numeral → F64 := fun n => match parse_float_or_rational n.text with | .ok x => x | .error _ => ⟨0⟩
  have hvalid : ∀ l : FLine, l.Ok → ∀ n ∈ l.numerals, n.Valid := by
    intro l h n hn
    cases l with
    | blank ws => simp [FLine.numerals] at hn
    | time g m t => simp [FLine.numerals] at hn; subst hn; exact h.2.1
    | glob ns g g' tag tail =>
      simp only [FLine.numerals, List.mem_map] at hn
      obtain ⟨p, hp, rfl⟩ := hn
      exact (h.1 p hp).2
    | atom g name gi idx x y z gt g' tag tail =>
      have hx := h.2.2.2.2.2.2.1
      simp only [FLine.numerals, List.mem_cons, List.not_mem_nil, or_false] at hn
      rcases hn with rfl | rfl | rfl
      · exact (hx x (by simp)).2.2
      · exact (hx y (by simp)).2.2
      · exact (hx z (by simp)).2.2
  have hall : ∀ l ∈ ls, ∀ n ∈ l.numerals,
      parse_float_or_rational n.text = .ok (val n) ∧ F64.Nearest n.value (val n) := by
    intro l hm n hn
    rcases float_text n (hvalid l (hl l hm) n hn) with ⟨x, h1, h2, -⟩ | ⟨-, h2⟩
    · simp only [val, h1]; exact ⟨trivial, h2⟩
    · exact absurd (hv l hm n hn) (not_lt.2 h2)
  obtain ⟨d, h1, h2⟩ := MdFrame.frame_says (val := val) ls hl
    (fun l hm n hn => ⟨hvalid l (hl l hm) n hn, (hall l hm n hn).1⟩)
  exact ⟨val, d, fun l hm n hn => (hall l hm n hn).2, h1, h2⟩

/-- A frame as CASTEP prints it, with a custom species name. -/
def sampleFrame : List FLine :=
  [.time (py"                     ") ⟨none, py"2", some (py"5"), some (true, some false, py"001")⟩ (py"\n"),
   .glob [(py"   ", ⟨some true, py"8", some (py"25"), none⟩), (py"  ", ⟨none, py"1", some (py"0"), none⟩)]
     (py"   ") (py" ") (py"E") (py"\n"),
   .glob [(py"   ", ⟨none, py"1", some (py"0"), none⟩)] (py"  ") (py" ") (py"h") (py"\n"),
   .glob [(py"   ", ⟨none, py"2", some (py"0"), none⟩)] (py"  ") (py" ") (py"h") (py"\n"),
   .atom (py" ") ⟨c!"S", py"i", some (py"28"), none⟩ (py"      ") (py"12")
     (py"  ", ⟨none, py"0", some (py"25"), none⟩) (py"  ", ⟨some true, py"0", some (py"5"), none⟩)
     (py"  ", ⟨none, py"4", none, none⟩) (py"  ") (py" ") (py"R") (py"\n"),
   .blank (py"\n")]

example : (∀ l ∈ sampleFrame, l.Ok) ∧ (∀ l ∈ sampleFrame, ∀ n ∈ l.numerals, |n.value| < (2 ^ 54 - 1) * 2 ^ 970) := by
  decide +kernel

example : (sampleFrame.map FLine.text)[4]? = some (py" Si:28      12  0.25  -0.5  4  <-- R\n") := by decide +kernel

example : parse_md_geom_frame (sampleFrame.map FLine.text) = .ok (.dict
    [(.str (py"ions"), .dict [(.tup [.str (py"Si:28"), .int 12], .dict
        [(.str (py"R"), .tuple [.float ⟨0x3FD0000000000000⟩, .float ⟨0xBFE0000000000000⟩, .float ⟨0x4010000000000000⟩]),
         (.str (py"position"), .tuple [.float ⟨0x3FD0000000000000⟩, .float ⟨0xBFE0000000000000⟩, .float ⟨0x4010000000000000⟩])])]),
     (.str (py"time"), .float ⟨0x4039000000000000⟩),
     (.str (py"E"), .list [.list [.float ⟨0xC020800000000000⟩, .float ⟨0x3FF0000000000000⟩]]),
     (.str (py"h"), .list [.list [.float ⟨0x3FF0000000000000⟩], .list [.float ⟨0x4000000000000000⟩]]),
     (.str (py"energy"), .list [.list [.float ⟨0xC020800000000000⟩, .float ⟨0x3FF0000000000000⟩]]),
     (.str (py"lattice_vectors"), .list [.list [.float ⟨0x3FF0000000000000⟩], .list [.float ⟨0x4000000000000000⟩]])]) := by
  decide +kernel

end Verif.Props
