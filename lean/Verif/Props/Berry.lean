import Verif.Lemmas.Berry
import Verif.Props.FinalConfig
/-
C110: Berry phase polarisation.
-/
namespace Verif.Props
open Verif Spec Castep

/-- C110: every polarisation vector, table of polarisations, quantum and contribution of an ion of a Berry phase report is reported. -/
theorem C110 (items : List BerryItem) (ls : List (List Str)) (h : List.Forall₂ BerryItem.Lines items ls) (hok : ∀ i ∈ items, i.Ok) :
    ∃ rd : Numeral → F64, (∀ n : Numeral, n.Valid → n.InRange → F64.Nearest n.value (rd n)) ∧
      ∃ v p q d, LastWins (items.flatMap (BerryItem.rowsOf rd false)) v ∧ LastWins (items.flatMap (BerryItem.rowsOf rd true)) p ∧
        LastWins (items.flatMap (BerryItem.polEntries rd v p)) q ∧ LastWins (items.filterMap (BerryItem.entry rd q)) d ∧
        process_berry_phase ls.flatten = .ok d := by
  obtain ⟨rd, fl, hrd⟩ := readings
  refine ⟨rd, fun n h1 h2 => (hrd n h1 h2).1.2, _, _, _, _, LineTab.lastWins _, LineTab.lastWins _, LineTab.lastWins _, LineTab.lastWins _, ?_⟩
  exact BerryTab.loop (fun n h1 h2 => (hrd n h1 h2).1.1) h hok (ls.flatten.length + 1) [] (by simp) (by omega)

/-! ### Example -/

def exQuantum : QuantumRow :=
  ⟨exInt (py"3"), [exDec (py"0") (py"0000"), exDec (py"0") (py"0000"), exDec (py"1") (py"0000")], neg (py"0") (py"5925"), exDec (py"0") (py"8173"), exDec (py"0") (py"2248"), exDec (py"2") (py"1052")⟩

def exPolIon : PolIonRow :=
  ⟨py"1", py"2", py"12.00", (exDec (py"0") (py"500000"), exDec (py"0") (py"500000"), exDec (py"0") (py"529300")),
   [exDec (py"0") (py"000000"), exDec (py"0") (py"000000"), exDec (py"0") (py"351600")]⟩

def exZero : Numeral := exDec (py"0") (py"000000")

def exBerryItems : List BerryItem :=
  [.other, .ions (py"phase") [exPolIon] [exZero, exZero, exDec (py"0") (py"776400")], .other,
   .table (py"phase") [⟨py"Electronic", [exZero, exZero, neg (py"0") (py"562849")]⟩],
   .table (py"e bohr") [⟨py"Electronic", [exZero, exZero, neg (py"4") (py"411517")]⟩],
   .volume (py"C/m^2") [⟨py"Electronic", [exZero, exZero, neg (py"0") (py"592464")]⟩],
   .quanta (py"C/m^2") [exQuantum],
   .vector (py"Elec") (py"C/m^2") exZero exZero (neg (py"0") (py"592464"))]

def exEquals : Str := py"==========================================\n"

def exBerryLines : List (List Str) :=
  [[exEquals],
   [py"             Ionic contribution to polarisation (phase) [-1:1]\n", exEquals,
    py"ni nsp  Zion     frac_a1     frac_a2     frac_a3      pol_G1      pol_G2     pol_G3\n",
    py"  1 2  12.00    0.500000    0.500000    0.529300    0.000000    0.000000    0.351600\n",
    py" Total ionic polarisation (phase [-1:1])            0.000000    0.000000    0.776400\n", exEquals],
   [py"\n"],
   [py"             Polarisation (phase) [-1:1] in Recip Lattice Basis (G_1, G_2, G_3)\n", exEquals,
    py"Electronic polarisation     0.000000    0.000000   -0.562849\n", exEquals],
   [py"             Polarisation (e bohr)       in Recip Lattice Basis (G_1, G_2, G_3)\n", exEquals,
    py"Electronic polarisation     0.000000    0.000000   -4.411517\n", exEquals],
   [py"      Volume Polarisation (C/m^2)        in Recip Lattice Basis (G_1, G_2, G_3)\n", exEquals,
    py"Electronic polarisation     0.000000    0.000000   -0.592464\n", exEquals],
   [py" Polarisation (C/m^2) in Recip Lattice Basis defined on range [-Quantum/2:Quantum/2]\n",
    py"              Direction                   Electronic   Ionic    Total    (Quantum)\n", exEquals,
    py" G_3:  (  0.0000,  0.0000,  1.0000   )     -0.5925    0.8173    0.2248 (    2.1052 )\n", exEquals],
   [py" Elec  Polarisation (Cartesian Basis):    0.000000    0.000000   -0.592464 (C/m^2)\n"]]

theorem exBerry_items : List.Forall₂ BerryItem.Lines exBerryItems exBerryLines := by
  have row : ∀ n : Numeral, ∀ s l : Str, l = s ++ exZero.text ++ py"    " ++ exZero.text ++ py"   " ++ n.text ++ [10] → s = py"Electronic polarisation     " →
      (61 ∉ l) → (Fields l [py"Electronic", py"polarisation", exZero.text, exZero.text, n.text]) → BerryRow.Line ⟨py"Electronic", [exZero, exZero, n]⟩ l := by
    intro n s l e es h1 h2
    refine ⟨⟨_, h2⟩, hasNumbers_of (holds_of _ s [(exZero, py"    "), (exZero, py"   "), (n, [10])] ?_ ?_) (by simp), h1⟩
    · subst es; rfl
    · rw [e]; simp
  have nv : ∀ t : Str, Str.contains (py"Ionic") t = false → Str.contains (py"Elec") t = false → Str.contains (py"Total") t = false → BerryItem.NoVector t :=
    fun t h1 h2 h3 => ⟨not_occurs _ _ h1, not_occurs _ _ h2, not_occurs _ _ h3⟩
  refine .cons ⟨_, rfl, by decide +kernel, not_occurs _ _ (by decide +kernel)⟩ (.cons ?_ (.cons ⟨_, rfl, by decide +kernel, not_occurs _ _ (by decide +kernel)⟩
    (.cons ?_ (.cons ?_ (.cons ?_ (.cons ?_ (.cons ?_ .nil)))))))
  · refine ⟨_, _, _, [_], _, _, ⟨some true, py"1", none, none⟩, exInt (py"1"), rfl, occurs_of (by decide +kernel), ?_, by decide +kernel, by decide +kernel, .cons ?_ .nil, ?_, by decide +kernel, by decide +kernel, by decide +kernel, by decide +kernel⟩
    · exact ⟨py"             ", c!"I", py"onic contribution to polarisation ", py" [-1:1]\n", by decide +kernel, by decide +kernel, by decide +kernel, by decide +kernel, keyName_of (by decide +kernel), by decide, by decide⟩
    · exact ⟨(fields_iff _ _).2 (by decide +kernel), by decide +kernel⟩
    · exact hasNumbers_of (holds_of _ (py" Total ionic polarisation (phase [") [(⟨some true, py"1", none, none⟩, py":"), (exInt (py"1"), py"])            "), (exZero, py"    "), (exZero, py"    "),
        (exDec (py"0") (py"776400"), [10])] (by decide +kernel) (by decide +kernel)) (by simp)
  · refine ⟨_, _, [_], _, rfl, ⟨py"             ", c!"P", py"olarisation ", py" [-1:1] in Recip Lattice Basis (G_1, G_2, G_3)\n", by decide +kernel, by decide +kernel, by decide +kernel, by decide +kernel,
      keyName_of (by decide +kernel), by decide, by decide⟩, nv _ (by decide +kernel) (by decide +kernel) (by decide +kernel), not_occurs _ _ (by decide +kernel), by decide +kernel, by decide +kernel, .cons ?_ .nil⟩
    exact row _ _ _ (by decide +kernel) rfl (by decide +kernel) ((fields_iff _ _).2 (by decide +kernel))
  · refine ⟨_, _, [_], _, rfl, ⟨py"             ", c!"P", py"olarisation ", py"       in Recip Lattice Basis (G_1, G_2, G_3)\n", by decide +kernel, by decide +kernel, by decide +kernel, by decide +kernel,
      keyName_of (by decide +kernel), by decide, by decide⟩, nv _ (by decide +kernel) (by decide +kernel) (by decide +kernel), not_occurs _ _ (by decide +kernel), by decide +kernel, by decide +kernel, .cons ?_ .nil⟩
    exact row _ _ _ (by decide +kernel) rfl (by decide +kernel) ((fields_iff _ _).2 (by decide +kernel))
  · refine ⟨_, _, [_], _, rfl, ⟨py"      ", c!"V", py"olume Polarisation ", py"        in Recip Lattice Basis (G_1, G_2, G_3)\n", by decide +kernel, by decide +kernel, by decide +kernel, by decide +kernel,
      keyName_of (by decide +kernel), by decide, by decide⟩, nv _ (by decide +kernel) (by decide +kernel) (by decide +kernel), by decide +kernel, by decide +kernel, .cons ?_ .nil⟩
    exact row _ _ _ (by decide +kernel) rfl (by decide +kernel) ((fields_iff _ _).2 (by decide +kernel))
  · refine ⟨_, _, _, [_], _, rfl, ⟨py" ", c!"P", py"olarisation ", py" in Recip Lattice Basis defined on range [-Quantum/2:Quantum/2]\n", by decide +kernel, by decide +kernel, by decide +kernel, by decide +kernel,
      keyName_of (by decide +kernel), by decide, by decide⟩, nv _ (by decide +kernel) (by decide +kernel) (by decide +kernel), occurs_of (by decide +kernel), by decide +kernel, by decide +kernel, by decide +kernel, .cons ⟨?_, by decide +kernel⟩ .nil⟩
    exact hasNumbers_of (holds_of _ (py" G_") [(exInt (py"3"), py":  (  "), (exDec (py"0") (py"0000"), py",  "), (exDec (py"0") (py"0000"), py",  "), (exDec (py"1") (py"0000"), py"   )     "),
      (neg (py"0") (py"5925"), py"    "), (exDec (py"0") (py"8173"), py"    "), (exDec (py"0") (py"2248"), py" (    "), (exDec (py"2") (py"1052"), py" )\n")] (by decide +kernel) (by decide +kernel)) (by simp [exQuantum, QuantumRow.nums])
  · exact ⟨_, py" ", py"  Polarisation (Cartesian Basis)", py"    ", py"    ", py"   ", py" ", [10], rfl, by decide +kernel, by decide, by decide +kernel, by decide +kernel, by decide +kernel, by decide, by decide,
      not_occurs _ _ (by decide +kernel)⟩

theorem exBerry_ok : ∀ i ∈ exBerryItems, i.Ok := by
  have row : ∀ n : Numeral, n.Valid ∧ n.InRange → ∀ r ∈ [(⟨py"Electronic", [exZero, exZero, n]⟩ : BerryRow)], r.Ok := by
    intro n h r hr
    simp only [List.mem_singleton] at hr
    subst hr
    simp only [BerryRow.Ok, List.forall_mem_cons]
    exact ⟨by decide +kernel, by decide +kernel, h, by simp⟩
  simp only [exBerryItems, List.forall_mem_cons]
  refine ⟨trivial, ⟨?_, by decide +kernel, by decide +kernel⟩, trivial, row _ (by decide +kernel), row _ (by decide +kernel), ⟨row _ (by decide +kernel), by decide +kernel⟩, ?_, ⟨by decide +kernel, by decide +kernel⟩, by simp⟩
  · simp only [List.forall_mem_singleton, PolIonRow.Ok]
    exact ⟨by decide +kernel, by decide +kernel⟩
  · show ∀ r ∈ [exQuantum], QuantumRow.Ok r
    simp only [List.forall_mem_singleton, QuantumRow.Ok]
    decide +kernel

/-- The hypotheses of `C110` hold for a report with the contribution of an ion, tables of all kinds and a vector. -/
example : ∃ rd : Numeral → F64, (∀ n : Numeral, n.Valid → n.InRange → F64.Nearest n.value (rd n)) ∧
    ∃ v p q d, LastWins (exBerryItems.flatMap (BerryItem.rowsOf rd false)) v ∧ LastWins (exBerryItems.flatMap (BerryItem.rowsOf rd true)) p ∧
      LastWins (exBerryItems.flatMap (BerryItem.polEntries rd v p)) q ∧ LastWins (exBerryItems.filterMap (BerryItem.entry rd q)) d ∧
      process_berry_phase exBerryLines.flatten = .ok d :=
  C110 _ _ exBerry_items exBerry_ok

end Verif.Props
