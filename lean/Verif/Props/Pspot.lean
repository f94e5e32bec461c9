import Verif.Lemmas.PspotAll
import Verif.Props.Grids
/-
C97 and C98: definitions of pseudopotentials and the projectors in them.
-/
namespace Verif.Props
open Verif Spec Cell

/-- C97 for projectors with energies that are not negative: every projector is reported, in its order, with all its numbers. -/
theorem C97_partial (b : BetaFn) (hb : b.Ok Proj.PLUS) :
    ∃ rd : Numeral → F64, (∀ n : Numeral, n.Valid → n.InRange → F64.Nearest n.value (rd n)) ∧ parse_beta_function b.text = .ok (b.value rd) := by
  obtain ⟨rd, _, hrd⟩ := readings
  exact ⟨rd, fun n h1 h2 => (hrd n h1 h2).1.2, Pspot.beta_ok (fun n h1 h2 => (hrd n h1 h2).1.1) (fun u hu => List.mem_append_left _ hu) hb⟩

/-- `30U2.1U=+1.1@0.25` -/
def exBeta : BetaFn := ⟨3, 0, [⟨c!"U", some (exDec (py"2") (py"1")), none, none⟩, ⟨c!"U", none, some (py"=+", exDec (py"1") (py"1")), some (exDec (py"0") (py"25"))⟩]⟩

theorem exBeta_ok : exBeta.Ok Proj.PLUS := by
  refine ⟨by decide, by decide, ?_⟩
  intro p hp
  simp only [exBeta, List.mem_cons, List.not_mem_nil, or_false] at hp
  rcases hp with rfl | rfl
  · refine ⟨by decide, ?_, ?_, ?_⟩ <;> intro n hn
    · injection hn with hn; subst hn; decide +kernel
    · cases hn
    · cases hn
  · refine ⟨by decide, ?_, ?_, ?_⟩ <;> intro n hn
    · cases hn
    · injection hn with hn; subst hn; exact ⟨by decide, by decide +kernel⟩
    · injection hn with hn; subst hn; decide +kernel

example : exBeta.text = py"30U2.1U=+1.1@0.25" := by decide +kernel

example : ∃ rd : Numeral → F64, (∀ n : Numeral, n.Valid → n.InRange → F64.Nearest n.value (rd n)) ∧
    parse_beta_function (py"30U2.1U=+1.1@0.25") = .ok (.dict [(.str (py"orbital"), .int 3), (.str (py"shell"), .str (py"s")), (.str (py"shell_ind"), .int 0),
      (.str (py"projectors"), .list [.dict [(.str (py"type"), .str (py"U")), (.str (py"beta_rc"), .float (rd (exDec (py"2") (py"1"))))],
        .dict [(.str (py"type"), .str (py"U")), (.str (py"beta_e"), .float (rd (exDec (py"1") (py"1")))), (.str (py"beta_delta"), .float (rd (exDec (py"0") (py"25"))))]])]) := by
  obtain ⟨rd, h1, h2⟩ := C97_partial exBeta exBeta_ok
  refine ⟨rd, h1, ?_⟩
  rw [show py"30U2.1U=+1.1@0.25" = exBeta.text by decide +kernel, h2]
  rfl

/-- The same projectors with the absolute values of their energies. -/
def positive (b : BetaFn) : BetaFn := { b with projs := b.projs.map fun p => { p with energy := p.energy.map fun e => (py"+", e.2) } }

/-- C97 fails for negative energies: their sign is lost, so that the result is that for the absolute values of all energies. -/
theorem C97_violated (b : BetaFn) (hb : b.Ok (Proj.PLUS ++ Proj.MINUS)) : parse_beta_function b.text = parse_beta_function (positive b).text := by
  obtain ⟨rd, _, hrd⟩ := readings
  have hp : (positive b).Ok Proj.PLUS := by
    obtain ⟨h1, h2, h3⟩ := hb
    refine ⟨h1, h2, ?_⟩
    intro p hp
    obtain ⟨q, hq, rfl⟩ := List.mem_map.1 hp
    obtain ⟨a1, a2, a3, a4⟩ := h3 q hq
    refine ⟨a1, a2, ?_, a4⟩
    intro e he
    obtain ⟨e', he', rfl⟩ := Option.map_eq_some_iff.1 he
    exact ⟨by simp [Proj.PLUS], (a3 e' he').2⟩
  rw [Pspot.beta_ok (fun n h1 h2 => (hrd n h1 h2).1.1) (fun _ hu => hu) hb, Pspot.beta_ok (fun n h1 h2 => (hrd n h1 h2).1.1) (fun u hu => List.mem_append_left _ hu) hp]
  simp only [BetaFn.value, positive, List.map_map]
  congr 8
  refine List.map_congr_left fun p _ => ?_
  cases he : p.energy <;> simp [Proj.value, he]

/-- `30U-1.1` -/
def exNeg : BetaFn := ⟨3, 0, [⟨c!"U", none, some (py"-", exDec (py"1") (py"1")), none⟩]⟩

example : parse_beta_function (py"30U-1.1") = parse_beta_function (py"30U+1.1") := by
  have := C97_violated exNeg ⟨by decide, by decide, by
    intro p hp
    simp only [exNeg, List.mem_singleton] at hp
    subst hp
    refine ⟨by decide, ?_, ?_, ?_⟩ <;> intro n hn
    · cases hn
    · injection hn with hn; subst hn; exact ⟨by decide, by decide +kernel⟩
    · cases hn⟩
  rwa [show exNeg.text = py"30U-1.1" by decide +kernel, show (positive exNeg).text = py"30U+1.1" by decide +kernel] at this

/-! ### C98 -/

/-- C98 for definitions without a local energy and without negative energies of projectors: nothing is lost or changed. -/
theorem C98_partial (p : PspotDef) (hp : p.Ok) :
    ∃ rd : Numeral → F64, (∀ n : Numeral, n.Valid → n.InRange → F64.Nearest n.value (rd n)) ∧ parse_pspot_string p.text = .ok (p.value rd) := by
  obtain ⟨rd, _, hrd⟩ := readings
  exact ⟨rd, fun n h1 h2 => (hrd n h1 h2).1.2, Pspot.pspot_ok (fun n h1 h2 => (hrd n h1 h2).1.1) hp⟩

/-- C98 fails for definitions with a local energy, such as `0.5=2|…`: no such definition can be read. -/
theorem C98_violated (n : Numeral) (hn : n.Unsigned) (p : PspotDef) (hp : p.Ok) (hpoly : p.poly = none) :
    parse_pspot_string (n.text ++ py"=" ++ p.text) = .error .valueError := by
  rw [List.append_assoc]
  exact Pspot.energy_error hn hp hpoly

/-- `2|1.9|3.5|5|7.5|30U2.1U=+1.1@0.25:31N{3d2,4s0.5}[](tm,qc=7)` -/
def exPspot (poly : Option Bool) : PspotDef where
  poly := poly
  channel := exInt (py"2")
  core := exDec (py"1") (py"9")
  radii := none
  coarse := exDec (py"3") (py"5")
  medium := exInt (py"5")
  fine := exDec (py"7") (py"5")
  betas := [exBeta, ⟨3, 1, [⟨c!"N", none, none, none⟩]⟩]
  additions := [⟨.adj, [py"3d2", py"4s0.5"]⟩, ⟨.test, [[]]⟩, ⟨.flags, [py"tm", py"qc=7"]⟩]

theorem exPspot_ok (poly : Option Bool) : (exPspot poly).Ok := by
  have v : ∀ n ∈ [exDec (py"1") (py"9"), exDec (py"3") (py"5"), exInt (py"5"), exDec (py"7") (py"5")], n.Valid ∧ n.InRange := by decide +kernel
  refine ⟨⟨(by decide +kernel : (exInt (py"2")).Unsigned), rfl⟩, v _ (by simp [exPspot]), (fun q hq => by cases hq), v _ (by simp [exPspot]), v _ (by simp [exPspot]),
    v _ (by simp [exPspot]), ⟨by simp [exPspot], ?_⟩, ?_, (by decide : [AddKind.adj, AddKind.test, AddKind.flags].Nodup)⟩
  · intro b hb
    simp only [exPspot, List.mem_cons, List.not_mem_nil, or_false] at hb
    rcases hb with rfl | rfl
    · exact exBeta_ok
    · refine ⟨by decide, by decide, ?_⟩
      intro p hp
      simp only [List.mem_singleton] at hp
      subst hp
      refine ⟨by decide, ?_, ?_, ?_⟩ <;> intro n hn <;> cases hn
  · intro a ha
    simp only [exPspot, List.mem_cons, List.not_mem_nil, or_false] at ha
    rcases ha with rfl | rfl | rfl
    · refine ⟨by simp, ?_⟩
      intro s hs
      simp only [List.mem_cons, List.not_mem_nil, or_false] at hs
      rcases hs with rfl | rfl
      · exact ⟨c!"3", c!"d", py"2", [], rfl, by decide, by decide, by decide, by unfold Numeral.AllDigits; decide, .inl rfl⟩
      · exact ⟨c!"4", c!"s", [], py"0.5", rfl, by decide, by decide, by decide, by unfold Numeral.AllDigits; decide, .inr ⟨exDec (py"0") (py"5"), by decide +kernel, by decide +kernel, rfl, rfl⟩⟩
    · exact ⟨by simp, .inl rfl⟩
    · exact ⟨by simp, by simp, by decide +kernel⟩

example : (exPspot (some true)).text = py"2-|1.9|3.5|5|7.5|30U2.1U=+1.1@0.25:31N{3d2,4s0.5}[](tm,qc=7)" := by decide +kernel

example : ∃ d, parse_pspot_string (py"2-|1.9|3.5|5|7.5|30U2.1U=+1.1@0.25:31N{3d2,4s0.5}[](tm,qc=7)") = .ok (.dict d) ∧
    Dict.get? d (.str (py"print")) = some (.bool true) ∧ Dict.get? d (.str (py"poly_fit")) = some (.bool true) ∧
    Dict.get? d (.str (py"adjustment")) = some (.list [.str (py"3d2"), .str (py"4s0.5")]) ∧ Dict.get? d (.str (py"testing")) = some (.list [.str []]) ∧
    Dict.get? d (.str (py"flags")) = some (.list [.str (py"tm"), .str (py"qc=7")]) ∧ Dict.get? d (.str (py"beta_radius")) = none := by
  obtain ⟨rd, _, h⟩ := C98_partial (exPspot (some true)) (exPspot_ok _)
  rw [show (exPspot (some true)).text = py"2-|1.9|3.5|5|7.5|30U2.1U=+1.1@0.25:31N{3d2,4s0.5}[](tm,qc=7)" by decide +kernel] at h
  exact ⟨_, h, rfl, rfl, rfl, rfl, rfl, rfl⟩

example : parse_pspot_string (py"0.5=2|1.9|3.5|5|7.5|30U2.1U=+1.1@0.25:31N{3d2,4s0.5}[](tm,qc=7)") = .error .valueError := by
  have := C98_violated (exDec (py"0") (py"5")) (by decide +kernel) (exPspot none) (exPspot_ok _) rfl
  rwa [show (exDec (py"0") (py"5")).text ++ py"=" ++ (exPspot none).text = py"0.5=2|1.9|3.5|5|7.5|30U2.1U=+1.1@0.25:31N{3d2,4s0.5}[](tm,qc=7)" by decide +kernel] at this

end Verif.Props
