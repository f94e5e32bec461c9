import Verif.Lemmas.Constraints
import Verif.Props.DeltaScf
/-
C90 and C91: internal constraints and delocalised internals.
-/
namespace Verif.Props
open Verif Spec Castep

/-- What is reported for any table of constraints: type, target, current value, and as the ends a dictionary filled with one atom after
the other. -/
theorem C90_exact (t₁ t₂ t₃ : Str) (lines : List Str) (cs : List Constraint) (h : Interleaved Blank (fun l c => Constraint.Line l c) lines cs)
    (hok : ∀ c ∈ cs, c.Ok) :
    ∃ rd : Numeral → F64, (∀ n : Numeral, n.Valid → n.InRange → F64.Nearest n.value (rd n)) ∧
      ∃ ds, List.Forall₂ (fun (c : Constraint) d => LastWins (c.ends.map CoordEnd.entry) d) cs ds ∧
        process_internal_constraints (t₁ :: t₂ :: t₃ :: lines) = .ok (.list ((cs.zip ds).map fun p => p.1.report rd p.2)) := by
  obtain ⟨_, rd, hrd⟩ := readings
  refine ⟨rd, fun n h1 h2 => (hrd n h1 h2).2.2, cs.map fun c => Dict.ofList (c.ends.map CoordEnd.entry), ?_, ?_⟩
  · clear * -
    induction cs with
    | nil => exact .nil
    | cons c cs ih => exact .cons (LineTab.lastWins _) ih
  · have := collect_rows (g := fun c : Constraint => some (c.report rd (Dict.ofList (c.ends.map CoordEnd.entry)))) (fun l hl => Internal.row_blank hl) h
      fun l c hc hl => Internal.row_ok (fun n h1 h2 => (hrd n h1 h2).2.1) hl (hok c hc)
    rw [process_internal_constraints, List.drop_succ_cons, List.drop_succ_cons, List.drop_succ_cons, List.drop_zero, this]
    simp only [Delta.ok_bind, List.filterMap_eq_map', List.zip_map_right]
    show Except.ok _ = _
    congr 2
    clear * -
    induction cs with
    | nil => rfl
    | cons c cs ih => simpa using ih

/-- C90 for constraints between different atoms: each is reported with exactly its ends, in their order. -/
theorem C90_partial (t₁ t₂ t₃ : Str) (lines : List Str) (cs : List Constraint) (h : Interleaved Blank (fun l c => Constraint.Line l c) lines cs)
    (hok : ∀ c ∈ cs, c.Ok) (hd : ∀ c ∈ cs, (c.ends.map fun e => intOf e.atom).Nodup) :
    ∃ rd : Numeral → F64, (∀ n : Numeral, n.Valid → n.InRange → F64.Nearest n.value (rd n)) ∧
      process_internal_constraints (t₁ :: t₂ :: t₃ :: lines) = .ok (.list (cs.map fun c => c.report rd (c.ends.map CoordEnd.entry))) := by
  obtain ⟨rd, h1, ds, h2, h3⟩ := C90_exact t₁ t₂ t₃ lines cs h hok
  refine ⟨rd, h1, ?_⟩
  rw [h3]
  congr 2
  clear h h3 hok
  induction h2 with
  | nil => rfl
  | @cons c d cs ds hc _ ih =>
    rw [List.zip_cons_cons, List.map_cons, List.map_cons, ih fun c hc => hd c (by simp [hc])]
    congr 2
    have hn : ((c.ends.map CoordEnd.entry).map Prod.fst).Nodup := by
      have := (hd c (by simp)).map (f := Key.int) (by intro a b h; injection h)
      simpa [Function.comp_def, CoordEnd.entry] using this
    rw [LineTab.lastWins_unique hc (LineTab.lastWins _), Dict.ofList_nodup _ hn]

theorem eraseDups_length : ∀ (n : Nat) (l : List Key), l.length ≤ n → l.eraseDups.length ≤ l.length ∧ (l.eraseDups.length = l.length → l.Nodup) := by
  intro n
  induction n with
  | zero => intro l hl; obtain rfl : l = [] := List.length_eq_zero_iff.1 (by omega); simp
  | succ n ih =>
    intro l hl
    cases l with
    | nil => simp
    | cons a l =>
      rw [List.eraseDups_cons]
      have h1 := List.length_filter_le (fun b => !b == a) l
      obtain ⟨h2, h3⟩ := ih (l.filter fun b => !b == a) (by simp at hl; omega)
      refine ⟨by simp; omega, fun e => ?_⟩
      simp only [List.length_cons, Nat.add_right_cancel_iff] at e
      have hf : (l.filter fun b => !b == a) = l := List.filter_sublist.eq_of_length (by omega)
      rw [hf] at h3 e
      refine List.nodup_cons.2 ⟨fun hm => ?_, h3 e⟩
      rw [← hf] at hm
      simpa using (List.mem_filter.1 hm).2

/-- C90 is false for every constraint between an atom and an image of the same atom: fewer ends are reported than there are. -/
theorem C90_violated (t₁ t₂ t₃ : Str) (lines : List Str) (cs : List Constraint) (h : Interleaved Blank (fun l c => Constraint.Line l c) lines cs)
    (hok : ∀ c ∈ cs, c.Ok) (c : Constraint) (hc : c ∈ cs) (hd : ¬ (c.ends.map fun e => intOf e.atom).Nodup) :
    ∃ (rd : Numeral → F64) (vs : List PyVal) (d : List (Key × PyVal)), process_internal_constraints (t₁ :: t₂ :: t₃ :: lines) = .ok (.list vs) ∧
      c.report rd d ∈ vs ∧ d.length < c.ends.length := by
  obtain ⟨rd, -, ds, h2, h3⟩ := C90_exact t₁ t₂ t₃ lines cs h hok
  obtain ⟨d, hm, hl⟩ : ∃ d, (c, d) ∈ cs.zip ds ∧ LastWins (c.ends.map CoordEnd.entry) d := by
    clear h h3 hok
    induction h2 with
    | nil => cases hc
    | @cons c' d cs ds hl _ ih =>
      rcases List.mem_cons.1 hc with rfl | hc
      · exact ⟨d, by simp, hl⟩
      · obtain ⟨d', h1, h2⟩ := ih hc
        exact ⟨d', by simp [h1], h2⟩
  refine ⟨rd, _, d, h3, List.mem_map.2 ⟨(c, d), hm, rfl⟩, ?_⟩
  have e := congrArg List.length hl.1
  obtain ⟨h4, h5⟩ := eraseDups_length _ ((c.ends.map CoordEnd.entry).map Prod.fst) le_rfl
  rw [← e] at h4 h5
  simp only [List.length_map] at h4 h5
  refine lt_of_le_of_ne h4 fun he => hd ?_
  have := h5 he
  rw [List.map_map] at this
  have e2 : (Prod.fst ∘ CoordEnd.entry) = Key.int ∘ fun e : CoordEnd => intOf e.atom := rfl
  rw [e2, ← List.map_map] at this
  exact this.of_map

/-! ### C91 -/

/-- C91: the table of delocalised internals gives the primitive of every constraint and the number of primitives of each kind. -/
theorem C91 (items : List DelocItem) (ls : List Str) (h : List.Forall₂ DelocItem.Line items ls) (hok : ∀ i ∈ items, i.Ok) :
    ∃ ms cs, LastWins (items.filterMap DelocItem.maps) ms ∧ LastWins (items.filterMap DelocItem.counts) cs ∧
      process_deloc_table ls = .ok ((.str (py"constraint_mapping"), .dict ms) :: cs) :=
  ⟨_, _, LineTab.lastWins _, LineTab.lastWins _, Internal.deloc_fold h hok [] []⟩

/-- C91: the report on the active space gives its size, the degrees of freedom and the number of primitives. -/
theorem C91_active (ls : List Str) (ess : List (List (Key × PyVal))) (h : List.Forall₂ ActLine ls ess) :
    ∃ d, LastWins ess.flatten d ∧ process_deloc_act_space ls = .ok d :=
  ⟨_, LineTab.lastWins _, Internal.act_fold h []⟩

/-! ### Examples -/

def exEnd (a x y z : Str) (neg : Bool) : CoordEnd := ⟨exInt a, [exInt x, exInt y, ⟨if neg then some true else none, z, none, none⟩]⟩

def exBond : Constraint := ⟨py"Bond", exDec (py"2") (py"360"), none, [exEnd (py"4") (py"0") (py"0") (py"0") false, exEnd (py"5") (py"0") (py"0") (py"1") true]⟩

/-- A bond between an atom and its image. -/
def exImage : Constraint := ⟨py"Bond", exDec (py"2") (py"360"), some (exDec (py"2") (py"5")), [exEnd (py"4") (py"0") (py"0") (py"0") false, exEnd (py"4") (py"0") (py"0") (py"1") true]⟩

theorem exEnd_first (a : Str) (lead : Str) (hl : Leading lead) (h : 41 ∉ lead) (ha : ∀ c ∈ a, 48 ≤ c ∧ c ≤ 57) :
    (exEnd a (py"0") (py"0") (py"0") false).Text (lead ++ (a ++ py" ( 0 0 0")) := by
  refine ⟨?_, lead, _, rfl, hl, ?_⟩
  · simp only [List.mem_append, not_or]
    exact ⟨h, fun hm => by have := ha _ hm; omega, by decide⟩
  · have := Tight.gap (exInt a) (py" ( ") _ _ (by constructor <;> decide) (Tight.gap (exInt (py"0")) (py" ") _ _ (by constructor <;> decide)
      (Tight.gap (exInt (py"0")) (py" ") _ _ (by constructor <;> decide) (Tight.last (exInt (py"0")) [] (by constructor <;> decide))))
    simpa [exEnd, exInt, Numeral.text, Numeral.signText, Numeral.fracText, Numeral.expText] using this

theorem exEnd_second (a : Str) (lead : Str) (hl : Leading lead) (h : 41 ∉ lead) (ha : ∀ c ∈ a, 48 ≤ c ∧ c ≤ 57) :
    (exEnd a (py"0") (py"0") (py"1") true).Text (lead ++ (a ++ py" ( 0 0-1")) := by
  refine ⟨?_, lead, _, rfl, hl, ?_⟩
  · simp only [List.mem_append, not_or]
    exact ⟨h, fun hm => by have := ha _ hm; omega, by decide⟩
  · have := Tight.gap (exInt a) (py" ( ") _ _ (by constructor <;> decide) (Tight.gap (exInt (py"0")) (py" ") _ _ (by constructor <;> decide)
      (Tight.tight (exInt (py"0")) ⟨some true, py"1", none, none⟩ _ _ (by decide) (by decide) (Tight.last _ [] (by constructor <;> decide))))
    simpa [exEnd, exInt, Numeral.text, Numeral.signText, Numeral.fracText, Numeral.expText] using this

def exConLines : List Str :=
  [py"  1 Bond       2.360 Satisfied   4 ( 0 0 0)  5 ( 0 0-1)\n", py"  2 Bond       2.360     2.5     4 ( 0 0 0)  4 ( 0 0-1)\n", py"\n"]

theorem exCon_rows : Interleaved Blank (fun l c => Constraint.Line l c) exConLines [exBond, exImage] := by
  refine .row ?_ (.row ?_ (.skip (by decide +kernel) .nil))
  · exact ⟨py"1", [py"4", py"(", py"0", py"0", py"0)", py"5", py"(", py"0", py"0-1)"], [py"4 ( 0 0 0", py" 5 ( 0 0-1"], [],
      (fields_iff _ _).2 (by decide +kernel), by decide +kernel,
      .cons (exEnd_first (py"4") [] (by constructor <;> decide) (by decide) (by decide)) (.cons (exEnd_second (py"5") (py" ") (by constructor <;> decide) (by decide) (by decide)) .nil), by simp⟩
  · exact ⟨py"2", [py"4", py"(", py"0", py"0", py"0)", py"4", py"(", py"0", py"0-1)"], [py"4 ( 0 0 0", py" 4 ( 0 0-1"], [],
      (fields_iff _ _).2 (by decide +kernel), by decide +kernel,
      .cons (exEnd_first (py"4") [] (by constructor <;> decide) (by decide) (by decide)) (.cons (exEnd_second (py"4") (py" ") (by constructor <;> decide) (by decide) (by decide)) .nil), by simp⟩

theorem exCon_ok : ∀ c ∈ [exBond, exImage], c.Ok := by
  intro c hc
  simp only [List.mem_cons, List.not_mem_nil, or_false] at hc
  have he : ∀ a z : Str, ∀ neg : Bool, a ∈ [py"4", py"5"] → z ∈ [py"0", py"1"] → (exEnd a (py"0") (py"0") z neg).Ok := by
    intro a z neg ha hz
    simp only [List.mem_cons, List.not_mem_nil, or_false] at ha hz
    rcases ha with rfl | rfl <;> rcases hz with rfl | rfl <;> cases neg <;> simp only [CoordEnd.Ok, exEnd] <;> decide +kernel
  rcases hc with rfl | rfl
  · refine ⟨by decide, by decide +kernel, ?_⟩
    intro e hm
    simp only [exBond, List.mem_cons, List.not_mem_nil, or_false] at hm
    rcases hm with rfl | rfl <;> exact he _ _ _ (by decide) (by decide)
  · refine ⟨by decide, by decide +kernel, ?_⟩
    intro e hm
    simp only [exImage, List.mem_cons, List.not_mem_nil, or_false] at hm
    rcases hm with rfl | rfl <;> exact he _ _ _ (by decide) (by decide)

/-- The hypotheses of `C90_exact` and `C90_violated` hold for a table with a bond to an image. -/
example : Interleaved Blank (fun l c => Constraint.Line l c) exConLines [exBond, exImage] ∧ (∀ c ∈ [exBond, exImage], c.Ok) ∧
    exImage ∈ [exBond, exImage] ∧ ¬ (exImage.ends.map fun e => intOf e.atom).Nodup := ⟨exCon_rows, exCon_ok, by simp, by decide +kernel⟩

/-- Those of `C90_partial` hold for a table without. -/
example : Interleaved Blank (fun l c => Constraint.Line l c) (exConLines.take 1) [exBond] ∧ (∀ c ∈ [exBond], c.Ok) ∧
    ∀ c ∈ [exBond], (c.ends.map fun e => intOf e.atom).Nodup := by
  refine ⟨?_, fun c hc => exCon_ok c (by simp at hc; simp [hc]), ?_⟩
  · have := exCon_rows
    cases this with
    | row h _ => exact .row h .nil
    | skip h _ => exact absurd h (by decide +kernel)
  · intro c hc
    obtain rfl := List.mem_singleton.1 hc
    decide +kernel

/-- A table of delocalised internals. -/
def exDeloc : List DelocItem := [.other, .mapping (exInt (py"1")) (exInt (py"15")), .mapping (exInt (py"2")) (exInt (py"43")), .total (py"bonds") (exInt (py"16"))]

example : List.Forall₂ DelocItem.Line exDeloc [py"Message: Generating delocalized internals\n", py" constraint #     1 is a primitive #    15\n",
      py" constraint #     2 is a primitive #    43\n", py"Total number of primitive bonds:             16\n"] ∧ (∀ i ∈ exDeloc, i.Ok) := by
  refine ⟨.cons ⟨?_, ?_⟩ (.cons ⟨⟨_, rfl⟩, ?_⟩ (.cons ⟨⟨_, rfl⟩, ?_⟩ (.cons ⟨⟨_, rfl⟩, [], (fields_iff _ _).2 (by decide +kernel)⟩ .nil))), ?_⟩
  · rintro ⟨r, h⟩; simp at h
  · rintro ⟨r, h⟩; simp at h
  · exact hasNumbers_of (holds_of _ (py" constraint #     ") [(exInt (py"1"), py" is a primitive #    "), (exInt (py"15"), py"\n")] (by decide +kernel) (by decide +kernel)) (by simp)
  · exact hasNumbers_of (holds_of _ (py" constraint #     ") [(exInt (py"2"), py" is a primitive #    "), (exInt (py"43"), py"\n")] (by decide +kernel) (by decide +kernel)) (by simp)
  · intro i hi
    simp only [exDeloc, List.mem_cons, List.not_mem_nil, or_false] at hi
    rcases hi with rfl | rfl | rfl | rfl <;> simp only [DelocItem.Ok] <;> decide +kernel

/-- A line of the report on the active space. -/
example : ActLine (py" There are :     24  degrees of freedom\n") [(.str (py"num_dof"), .int 24)] :=
  .inr ⟨exInt (py"24"), [], [(py"degrees", py"num_dof")],
    hasNumbers_of (holds_of _ (py" There are :     ") [(exInt (py"24"), py"  degrees of freedom\n")] (by decide +kernel) (by decide +kernel)) (by simp),
    by decide +kernel, by decide, by decide, by
      intro p hp
      rw [← Str.contains_iff]
      simp only [ACTIVE, List.mem_cons, List.not_mem_nil, or_false] at hp
      rcases hp with rfl | rfl | rfl <;> decide +kernel, rfl⟩

end Verif.Props
