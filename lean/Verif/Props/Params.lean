import Verif.Lemmas.Params
import Verif.Props.GeomSteps
/-
C88: the list of parameters of a `.castep` file.
-/
namespace Verif.Props
open Verif Spec Castep

/-- C88, for options whose value has no colon and whose text does not begin with digits, and lists without a block of
developer code: every option under its name in its group, the units under `output_units`.
Missing: values with a colon (`C88_violated_colon`), texts that begin with digits (`C88_violated_digits`), and what is
made of developer code. -/
theorem C88_partial (lines : List Str) (items : List ParamItem) (hl : List.Forall₂ (fun l i => ParamItem.Line l i) lines items) :
    ∃ (rd : Numeral → F64) (d : List (Key × PyVal)), (∀ i ∈ items, Reads rd i.nums) ∧ process_params lines = .ok (.dict d) ∧ ParamDict rd items d := by
  obtain ⟨rd, fl, hrd⟩ := readings
  have hok : ∀ i ∈ items, ∀ n ∈ i.nums, n.Valid ∧ n.InRange := by
    intro i hi n hn
    obtain ⟨l, -, hl⟩ : ∃ l ∈ lines, ParamItem.Line l i := by
      clear hrd
      induction hl with
      | nil => cases hi
      | @cons l j ls js h _ ih =>
        rcases List.mem_cons.1 hi with rfl | hi
        · exact ⟨l, by simp, h⟩
        · obtain ⟨l', h1, h2⟩ := ih hi
          exact ⟨l', by simp [h1], h2⟩
    cases i with
    | option name v =>
      obtain ⟨-, -, -, -, -, -, -, -, -, -, -, -, hv⟩ := hl
      cases v with
      | number m us => obtain rfl := List.mem_singleton.1 hn; exact hv
      | text ws => cases hn
    | _ => cases hn
  obtain ⟨d, h1, h2⟩ := Params.params_ok (rd := rd) hl fun i hi n hn => (hrd n (hok i hi n hn).1 (hok i hi n hn).2).1.1
  exact ⟨rd, d, fun i hi n hn => (hrd n (hok i hi n hn).1 (hok i hi n hn).2).1.2, h1, h2⟩

/-- An option whose text begins with digits, such as the name of a file `2H-MoS2.check`, makes the parse fail, and every
other parameter is lost with it: whatever comes before it and after it. -/
theorem C88_violated_digits (lines : List Str) (items : List ParamItem) (hl : List.Forall₂ (fun l i => ParamItem.Line l i) lines items)
    (l a b ds r : Str) (c : Nat) (us more : List Str)
    (hdev : ¬ Occurs (py"Developer Code") l) (htl : ∀ t, ¬ TitleLine l t) (hul : ¬ UnitLike l) (hab : l = a ++ c!":" :: b) (ha : c!":" ∉ a) (hb : c!":" ∉ b)
    (hw : Fields b ((ds ++ c :: r) :: us)) (hd : Numeral.AllDigits ds) (h0 : ds ≠ []) (hc : isDigit c = false) (hx : c ∉ py".eE+-/_") :
    process_params (lines ++ l :: more) = .error .valueError := by
  obtain ⟨rd, fl, hrd⟩ := readings
  have hok : ∀ i ∈ items, ∀ n ∈ i.nums, parse_float_or_rational n.text = .ok (rd n) := by
    induction hl with
    | nil => intro i hi; cases hi
    | @cons l j ls js h _ ih =>
      intro i hi n hn
      rcases List.mem_cons.1 hi with rfl | hi
      · cases i with
        | option name v =>
          obtain ⟨-, -, -, -, -, -, -, -, -, -, -, -, hv⟩ := h
          cases v with
          | number m us => obtain rfl := List.mem_singleton.1 hn; exact (hrd n hv.1 hv.2).1.1
          | text ws => cases hn
        | _ => cases hn
      · exact ih i hi n hn
  exact Params.digits_lost hl hok hdev htl hul hab ha hb hw hd h0 hc hx

/-- A value with a colon is cut: what is before its last colon goes into the name of the option. -/
theorem C88_violated_colon : ∃ l a b : Str, l = a ++ c!":" :: b ∧ c!":" ∉ a ∧
    process_params [l] = .ok (.dict [(.str [], .dict [(.str (Str.strip a ++ py" C"), .str (py"\\Si.check"))])]) ∧ Str.strip b = py"C:\\Si.check" :=
  ⟨py" write checkpoint data to : C:\\Si.check", py" write checkpoint data to ", py" C:\\Si.check", by decide +kernel⟩

/-! ### Examples -/

theorem not_title {l : Str} (h : c!"*" ∉ l) : ∀ t, ¬ TitleLine l t := by
  rintro t ⟨g, s, u, more, rfl, -, ⟨h0, hs⟩, -⟩
  obtain ⟨c, s, rfl⟩ := List.exists_cons_of_ne_nil h0
  obtain rfl := hs c (by simp)
  exact h (by simp)

theorem not_unitLike {l : Str} (h : Str.contains (py" unit") l = false) : ¬ UnitLike l := by
  rintro ⟨g, q, g2, v, rfl, -⟩
  refine not_occurs _ _ h ⟨g ++ (py"output " ++ q), g2 ++ c!":" :: v, by simp⟩

theorem option_of {l a b : Str} {ns : List Str} {v : OptValue} (hl : l = a ++ c!":" :: b) (h1 : Str.contains (py"Developer Code") l = false)
    (h2 : c!"*" ∉ l) (h3 : Str.contains (py" unit") l = false) (ha : c!":" ∉ a) (hb : c!":" ∉ b) (h4 : Str.split a = ns) (h5 : Str.split b = v.words) (h6 : v.Ok) :
    ParamItem.Line l (.option (Str.join (py" ") ns) v) :=
  ⟨not_occurs _ _ h1, not_title h2, not_unitLike h3, a, b, ns, hl, ha, hb, (fields_iff _ _).2 h4, (fields_iff _ _).2 h5, rfl, h6⟩

theorem nothing_of {l : Str} (h1 : Str.contains (py"Developer Code") l = false) (h2 : c!"*" ∉ l) (h3 : c!":" ∉ l) : ParamItem.Line l .nothing :=
  ⟨not_occurs _ _ h1, not_title h2, h3⟩

theorem text_ok {w : Str} {ws : List Str} (h : ∀ c ∈ w.head?, isDigit c = false ∧ c ≠ 46 ∧ c ≠ 43 ∧ c ≠ 45) : (OptValue.text (w :: ws)).Ok := by
  intro w' hw n hn hp
  cases hw
  obtain ⟨x, y, e, hx⟩ := text_head n hn
  rw [e] at hp
  obtain ⟨t, rfl⟩ := hp
  have := h x (by simp)
  simp only [Verif.numChar, this.1] at hx
  simp at hx
  omega

def exParamLines : List Str :=
  [py" ***************************** General Parameters ******************************\n", py" \n",
   py" output verbosity                               : normal  (1)\n",
   py" write checkpoint data to                       : beta-mn.check\n",
   py" output         length unit                     : A\n", py" \n",
   py" ************************** Density Mixing Parameters **************************\n",
   py" density-mixing scheme                          : Broyden\n",
   py" max. length of mixing history                  :         20\n",
   py" charge density mixing g-vector                 :     1.500       1/A\n"]

def exParamItems : List ParamItem :=
  [.group (py"general"), .nothing, .option (py"output verbosity") (.text [py"normal", py"(1)"]), .option (py"write checkpoint data to") (.text [py"beta-mn.check"]),
   .unit (py"length") (py"A"), .nothing, .group (py"density mixing"), .option (py"density-mixing scheme") (.text [py"Broyden"]),
   .option (py"max. length of mixing history") (.number (exInt (py"20")) []),
   .option (py"charge density mixing g-vector") (.number (exDec (py"1") (py"500")) [py"1/A"])]

set_option maxRecDepth 4000

theorem exParam_lines : List.Forall₂ (fun l i => ParamItem.Line l i) exParamLines exParamItems := by
  refine .cons ?_ (.cons ?_ (.cons ?_ (.cons ?_ (.cons ?_ (.cons ?_ (.cons ?_ (.cons ?_ (.cons ?_ (.cons ?_ .nil)))))))))
  · refine ⟨not_occurs _ _ (by decide +kernel), py"General Parameters", py"General ", [py"General"],
      ⟨py" ", List.replicate 29 42, List.replicate 30 42, py"\n", by decide +kernel⟩,
      .inr ⟨py"General ", [], by decide +kernel, not_occurs _ _ (by decide +kernel), not_occurs _ _ (by decide +kernel), by decide +kernel⟩, (fields_iff _ _).2 (by decide +kernel), by decide +kernel⟩
  · exact nothing_of (by decide +kernel) (by decide +kernel) (by decide +kernel)
  · exact option_of (a := py" output verbosity                               ") (b := py" normal  (1)\n") (ns := [py"output", py"verbosity"]) (by decide +kernel) (by decide +kernel) (by decide +kernel) (by decide +kernel) (by decide +kernel) (by decide +kernel) (by decide +kernel) (by decide +kernel) (text_ok (by decide))
  · exact option_of (a := py" write checkpoint data to                       ") (b := py" beta-mn.check\n") (ns := [py"write", py"checkpoint", py"data", py"to"]) (by decide +kernel) (by decide +kernel) (by decide +kernel) (by decide +kernel) (by decide +kernel) (by decide +kernel) (by decide +kernel) (by decide +kernel) (text_ok (by decide))
  · refine ⟨not_occurs _ _ (by decide +kernel), py"        length", py"A", [py"length"], [py"A"],
      ⟨py" ", py"                     ", py" ", [10], by decide +kernel, by decide +kernel, by decide +kernel, by decide +kernel, by decide, by decide +kernel, by simp [isSpace], not_occurs _ _ (by decide +kernel)⟩,
      (fields_iff _ _).2 (by decide +kernel), (fields_iff _ _).2 (by decide +kernel), by decide +kernel, by decide +kernel⟩
  · exact nothing_of (by decide +kernel) (by decide +kernel) (by decide +kernel)
  · refine ⟨not_occurs _ _ (by decide +kernel), py"Density Mixing Parameters", py"Density Mixing ", [py"Density", py"Mixing"],
      ⟨py" ", List.replicate 26 42, List.replicate 26 42, py"\n", by decide +kernel⟩,
      .inr ⟨py"Density Mixing ", [], by decide +kernel, not_occurs _ _ (by decide +kernel), not_occurs _ _ (by decide +kernel), by decide +kernel⟩, (fields_iff _ _).2 (by decide +kernel), by decide +kernel⟩
  · exact option_of (a := py" density-mixing scheme                          ") (b := py" Broyden\n") (ns := [py"density-mixing", py"scheme"]) (by decide +kernel) (by decide +kernel) (by decide +kernel) (by decide +kernel) (by decide +kernel) (by decide +kernel) (by decide +kernel) (by decide +kernel) (text_ok (by decide))
  · exact option_of (a := py" max. length of mixing history                  ") (b := py"         20\n") (ns := [py"max.", py"length", py"of", py"mixing", py"history"]) (by decide +kernel) (by decide +kernel) (by decide +kernel) (by decide +kernel) (by decide +kernel) (by decide +kernel) (by decide +kernel) (by decide +kernel) ⟨by decide +kernel, by decide +kernel⟩
  · exact option_of (a := py" charge density mixing g-vector                 ") (b := py"     1.500       1/A\n") (ns := [py"charge", py"density", py"mixing", py"g-vector"]) (by decide +kernel) (by decide +kernel) (by decide +kernel) (by decide +kernel) (by decide +kernel) (by decide +kernel) (by decide +kernel) (by decide +kernel) ⟨by decide +kernel, by decide +kernel⟩

example := C88_partial exParamLines exParamItems exParam_lines

/-- What the example says. -/
example (rd : Numeral → F64) : paramGroups rd [] [] exParamItems =
    [([], []), (py"general", [(.str (py"output verbosity"), .str (py"normal (1)")), (.str (py"write checkpoint data to"), .str (py"beta-mn.check"))]),
     (py"density mixing", [(.str (py"density-mixing scheme"), .str (py"Broyden")), (.str (py"max. length of mixing history"), .int 20),
       (.str (py"charge density mixing g-vector"), .tuple [.float (rd (exDec (py"1") (py"500"))), .str (py"1/A")])])] := by rfl

example : process_params (exParamLines ++ py" write checkpoint data to  : 2H-MoS2.check\n" :: [py" output length unit : A\n"]) = .error .valueError :=
  C88_violated_digits exParamLines exParamItems exParam_lines _ (py" write checkpoint data to  ") (py" 2H-MoS2.check\n") (py"2") (py"-MoS2.check") (c!"H") [] _
    (not_occurs _ _ (by decide +kernel)) (not_title (by decide +kernel)) (not_unitLike (by decide +kernel)) (by decide +kernel) (by decide +kernel) (by decide +kernel)
    ((fields_iff _ _).2 (by decide +kernel)) (by decide +kernel) (by decide) (by decide) (by decide)

end Verif.Props
