import Verif.Spec.NonLin
import Verif.Lemmas.XcDef
import Verif.Lemmas.IonCons
/-
Constraints on distances and angles.
-/
namespace Verif
open Re NumRe AtomRe Spec

namespace NonLinL

/-- The name and the number of an atom, with what follows. -/
theorem name_run {β : Type _} {r : Re} {a : AtomName} {idx g0 g1 s pre : Str} {caps : List (Nat × Str)} {k : St → Option β} {v : β} (ha : a.Valid)
    (hd : Numeral.AllDigits idx) (hne : idx ≠ []) (h0 : AtomVec.Gap g0) (h1 : AtomVec.Gap g1)
    (hp : ∀ c, pre.head? = some c → isWord c = false)
    (h : run r ⟨idx.reverse ++ (g0.reverse ++ (a.text.reverse ++ pre)), g1 ++ s, (2, idx) :: (1, a.text) :: caps⟩ k = some v) :
    run (.seq (.group 1 A) (.seq (plus sp) (.seq (.group 2 (plus dig)) r))) ⟨pre, a.text ++ (g0 ++ (idx ++ (g1 ++ s))), caps⟩ k = some v := by
  obtain ⟨d, idx', rfl⟩ := List.exists_cons_of_ne_nil hne
  have hdd : isDigit d = true := (isDigit_iff d).2 (hd d (by simp))
  have hds := isDigit_not_space hdd
  rw [run_seq, run_group]
  apply run_A a ha _ _ _ _ _ hp (spaceNext_append h0.1 h0.2)
  · intro _ g q e hg hq
    cases q with
    | nil => cases hq
    | cons b q =>
      simp at hq; subst hq
      obtain ⟨rfl, -⟩ := IonCons.cut_head (r := idx' ++ (g1 ++ s)) (d' := 91) h0.1 hds hg (by decide) (by simpa using e)
      simp [isDigit] at hdd
  · rw [upTo_append, run_seq]
    apply run_plus_all sp 1 g0 _ _ _ _ _ _ (List.length_pos_iff.2 h0.2)
      (fun c hc => by rw [has_sp]; exact h0.1 c hc) (by intro c hc; simp at hc; subst hc; rw [has_sp]; exact hds) (by simp)
    rw [run_seq, run_group]
    apply run_plus_all dig 1 (d :: idx') _ _ _ _ _ _ (by simp)
      (fun c h => (allDigits_iff _).1 hd c h) (AtomVec.ends_gap h1).stops (by simp)
    rw [upTo_append]; exact h

theorem match_of {q : Pat} {pre w rest : Str} {cp : List (Nat × Str)} (h : run q.re ⟨pre, w ++ rest, []⟩ some = some ⟨w.reverse ++ pre, rest, cp⟩) :
    ∃ x, q.matchAt pre (w ++ rest) = some x ∧ x.whole = w ∧ x.caps = cp ∧ x.names = q.names := by
  refine ⟨⟨pre.reverse, w, rest, cp, q.names, q.ngroups⟩, ?_, rfl, rfl, rfl⟩
  rw [Pat.matchAt_eq, h]
  simp

/-- The match of an atom. -/
theorem atom_match {a : AtomVec} (hok : a.Ok) {g0 g1 g2 g3 : Str} (h0 : AtomVec.Gap g0) (h1 : AtomVec.Gap g1) (h2 : AtomVec.Gap g2) (h3 : AtomVec.Gap g3)
    {pre rest : Str} (hp : ∀ c, pre.head? = some c → isWord c = false) (hr : EndsNumber rest) :
    ∃ x w, w = a.name.text ++ (g0 ++ (a.idx ++ (g1 ++ (a.x.text ++ (g2 ++ (a.y.text ++ (g3 ++ a.z.text))))))) ∧
      Res.ATOMIC_DATA_3VEC.matchAt pre (w ++ rest) = some x ∧ x.whole = w ∧ x.caps = AtomVec.caps a ∧ x.names = Res.ATOMIC_DATA_3VEC.names := by
  obtain ⟨ha, hd, hne, hn⟩ := hok
  let w := a.name.text ++ (g0 ++ (a.idx ++ (g1 ++ (a.x.text ++ (g2 ++ (a.y.text ++ (g3 ++ a.z.text)))))))
  have hrun : run AD3 ⟨pre, w ++ rest, []⟩ some = some ⟨w.reverse ++ pre, rest, AtomVec.caps a⟩ := by
    have ew : w ++ rest = a.name.text ++ (g0 ++ (a.idx ++ (g1 ++ (a.x.text ++ (g2 ++ (a.y.text ++ (g3 ++ (a.z.text ++ rest)))))))) := by simp [w]
    rw [ew]
    refine name_run ha hd hne h0 h1 hp ?_
    rw [run_seq]
    refine run_LF 3 g1 a.x h1.1 h1.2 (hn _ (by simp)).1 _ _ _ _ _ (AtomVec.ends_gap h2) ?_
    rw [run_seq]
    refine run_LF 4 g2 a.y h2.1 h2.2 (hn _ (by simp)).1 _ _ _ _ _ (AtomVec.ends_gap h3) ?_
    refine run_LF 5 g3 a.z h3.1 h3.2 (hn _ (by simp)).1 _ _ _ _ _ hr ?_
    simp [w, AtomVec.caps]
  obtain ⟨x, h1, h2, h3, h4⟩ := match_of (q := Res.ATOMIC_DATA_3VEC) (by rw [AD3_eq]; exact hrun)
  exact ⟨x, w, rfl, h1, h2, h3, h4⟩

set_option linter.constructorNameAsVariable false in
/-- No match at a text that does not begin with a capital letter. -/
theorem no_match {pre s : Str} (h : ∀ c, s.head? = some c → ¬ (65 ≤ c ∧ c ≤ 90)) : Res.ATOMIC_DATA_3VEC.matchAt pre s = none := by
  cases hx : Res.ATOMIC_DATA_3VEC.matchAt pre s with
  | none => rfl
  | some m =>
    exfalso
    obtain ⟨e, -, hl, -⟩ := Pat.matchAt_some hx
    rw [AD3_eq] at hl
    obtain ⟨c, r, hw, hc⟩ := AtomVec.capital_AD3 _ hl
    exact h c (by rw [e, hw]; rfl) hc

theorem gap_none {g : Str} (hg : Blank g) (pre rest : Str) : ∀ u v, g = u ++ v → v ≠ [] →
    Res.ATOMIC_DATA_3VEC.matchAt (u.reverse ++ pre) (v ++ rest) = none := by
  intro u v e hv
  obtain ⟨d, v', rfl⟩ := List.exists_cons_of_ne_nil hv
  refine no_match fun c hc => ?_
  simp at hc; subst hc
  have := hg d (by rw [e]; simp)
  intro h
  simp [isSpace] at this
  omega

/-- The matches of a list of atoms. -/
theorem find_atoms {s : Str} {as : List AtomVec} (h : NonLin.Atoms s as) : (∀ a ∈ as, a.Ok) → ∀ (g pre : Str) (fuel : Nat), Blank g →
    (∀ c, (g.reverse ++ pre).head? = some c → isWord c = false) → as.length ≤ fuel →
    List.Forall₂ (fun (x : Match) a => x.caps = AtomVec.caps a ∧ x.names = Res.ATOMIC_DATA_3VEC.names) (Res.ATOMIC_DATA_3VEC.findFrom fuel pre (g ++ s)) as := by
  induction h with
  | @last a g0 g1 g2 g3 h0 h1 h2 h3 =>
    intro hok g pre fuel hg hp hf
    obtain ⟨fuel, rfl⟩ : ∃ f, fuel = f + 1 := ⟨fuel - 1, by simp at hf; omega⟩
    obtain ⟨x, w, ew, hx, hw, hc, hn⟩ := atom_match (hok a (by simp)) h0 h1 h2 h3 (rest := []) hp (by
      refine ⟨?_, by simp, by simp, by simp⟩; intro c hc; cases hc)
    have hwne : w ≠ [] := by rw [ew]; simp [AtomName.text]
    rw [← ew]
    have := Pat.findFrom_cons Res.ATOMIC_DATA_3VEC fuel pre g w [] x hwne (gap_none hg pre _) hx hw
    rw [List.append_nil] at this
    rw [this, Pat.findFrom_nil]
    · exact .cons ⟨hc, hn⟩ .nil
    · intro u v e
      obtain ⟨rfl, rfl⟩ : u = [] ∧ v = [] := by simpa using e
      exact no_match (by simp)
  | @cons a g0 g1 g2 g3 g' s as h0 h1 h2 h3 h' _ ih =>
    intro hok g pre fuel hg hp hf
    obtain ⟨fuel, rfl⟩ : ∃ f, fuel = f + 1 := ⟨fuel - 1, by simp at hf; omega⟩
    obtain ⟨x, w, ew, hx, hw, hc, hn⟩ := atom_match (hok a (by simp)) h0 h1 h2 h3 (rest := g' ++ s) hp (AtomVec.ends_gap h')
    have hwne : w ≠ [] := by rw [ew]; simp [AtomName.text]
    have e : a.name.text ++ (g0 ++ (a.idx ++ (g1 ++ (a.x.text ++ (g2 ++ (a.y.text ++ (g3 ++ (a.z.text ++ (g' ++ s))))))))) = w ++ (g' ++ s) := by
      rw [ew]; simp
    rw [e, Pat.findFrom_cons Res.ATOMIC_DATA_3VEC fuel pre g w (g' ++ s) x hwne (gap_none hg pre _) hx hw]
    refine .cons ⟨hc, hn⟩ (ih (fun b hb => hok b (by simp [hb])) g' _ fuel h'.1 ?_ (by simpa using hf))
    intro c hc
    obtain ⟨y, ys, ey⟩ := List.exists_cons_of_ne_nil (l := g'.reverse) (by simpa using h'.2)
    rw [ey] at hc
    simp at hc
    subst hc
    refine isSpace_not_word (h'.1 y ?_)
    have : y ∈ g'.reverse := by rw [ey]; simp
    simpa using this

theorem atoms_length {s : Str} {as : List AtomVec} (h : NonLin.Atoms s as) : as.length ≤ s.length := by
  induction h with
  | last => simp [AtomName.text]
  | cons _ _ _ _ _ _ ih => simp [AtomName.text]; omega

/-- What the matches give. -/
theorem atoms_of {ms : List Match} {as : List AtomVec} (h : List.Forall₂ (fun (x : Match) a => x.caps = AtomVec.caps a ∧ x.names = Res.ATOMIC_DATA_3VEC.names) ms as) :
    (∀ a ∈ as, a.Ok ∧ ∀ n ∈ [a.x, a.y, a.z], n.IsInt) → ∀ d : Dict Key PyVal,
    Cell.atomsOf ms d = .ok ((as.map NonLin.entry).foldl (fun d kv => Dict.set d kv.1 kv.2) d) := by
  induction h with
  | nil => intro _ _; rfl
  | @cons m a ms as h1 _ ih =>
    intro hok d
    obtain ⟨hc, hn⟩ := h1
    obtain ⟨ho, hi⟩ := hok a (by simp)
    rw [AD3_eq] at hn
    have a1 : m.named (py"index") = some a.idx := by rw [Castep.named_eq hc hn]; rfl
    have a2 : m.named (py"spec") = some a.name.text := by rw [Castep.named_eq hc hn]; rfl
    have a3 : m.named (py"x") = some a.x.text := by rw [Castep.named_eq hc hn]; rfl
    have a4 : m.named (py"y") = some a.y.text := by rw [Castep.named_eq hc hn]; rfl
    have a5 : m.named (py"z") = some a.z.text := by rw [Castep.named_eq hc hn]; rfl
    have ha : atreg_match m = .ok a.key := by
      rw [atreg_match, a1, MdFrame.intOfGroup_digits a.idx ho.2.1 ho.2.2.1, a2]; rfl
    have hv : to_type .int (.tuple (Res.FST_D.map fun x => optStr (m.named x))) = .ok (.tuple [.int (intOf a.x), .int (intOf a.y), .int (intOf a.z)]) := by
      have e : (Res.FST_D.map fun x => optStr (m.named x)) = [.str a.x.text, .str a.y.text, .str a.z.text] := by
        show [optStr (m.named (py"x")), optStr (m.named (py"y")), optStr (m.named (py"z"))] = _
        rw [a3, a4, a5]; rfl
      have t := fun (n : Numeral) (h : n ∈ [a.x, a.y, a.z]) => typeParser_int (ho.2.2.2 n h).1 (hi n h)
      rw [e]
      simp only [to_type, toTypeList, t a.x (by simp), t a.y (by simp), t a.z (by simp), Castep.Delta.ok_bind]
      rfl
    rw [Cell.atomsOf]
    simp only [ha, hv, Castep.Delta.ok_bind]
    rw [ih (fun q hq => hok q (by simp [hq]))]
    rfl

theorem not_end {l : Str} {c : NonLin} (hl : c.Line l) (hok : c.Ok) : Cell.isEnd l = false := by
  rw [Bool.eq_false_iff]
  intro h
  obtain ⟨g, g', s, rfl, hg, -⟩ := hl
  obtain ⟨⟨hne, hs, hh⟩, -⟩ := hok
  obtain ⟨d, k, e⟩ := List.exists_cons_of_ne_nil hne
  obtain ⟨g2, d2, s2, e2, hg2, rfl⟩ := GenBlock.close_head ((Cell.isEnd_iff _).1 h)
  rw [e] at e2 hh
  obtain ⟨rfl, -⟩ := IonCons.cut_head (r := k ++ (g' ++ s)) hg (hs d (by rw [e]; simp)) (d' := 37) hg2 (by decide) (by simpa using e2)
  exact hh rfl

theorem loop_rows {last : Str} (hlast : ClosesBlock last) : ∀ {ls : List Str} {cs : List NonLin}, List.Forall₂ (fun l c => NonLin.Line l c) ls cs → (∀ c ∈ cs, c.Ok) →
    Cell.nonlinearLoop (ls ++ [last]) = .ok (cs.map fun c => c.report (Dict.ofList (c.atoms.map NonLin.entry))) := by
  intro ls cs h
  induction h with
  | nil =>
    intro _
    rw [List.nil_append, Cell.nonlinearLoop, if_pos ((Cell.isEnd_iff _).2 hlast)]
    rfl
  | @cons l c ls cs h1 _ ih =>
    intro hok
    rw [List.cons_append, Cell.nonlinearLoop, not_end h1 (hok c (by simp))]
    obtain ⟨g, g', s, rfl, hg, hg', ha⟩ := h1
    obtain ⟨⟨hne, hs, -⟩, hat⟩ := hok c (by simp)
    have hh : ∃ d r, s = d :: r ∧ isSpace d = false := by
      clear ih
      generalize c.atoms = as at ha hat
      cases ha with
      | @last a =>
        refine ⟨a.name.up, _, rfl, ?_⟩
        have := (hat a (by simp)).1.1.1
        simp [isSpace]; omega
      | @cons a =>
        refine ⟨a.name.up, _, rfl, ?_⟩
        have := (hat a (by simp)).1.1.1
        simp [isSpace]; omega
    obtain ⟨d, r, es, hd⟩ := hh
    have hu : unpack2 (Str.split1 (g ++ (c.kind ++ (g' ++ s)))) = .ok (c.kind, s) := by
      rw [XcDef.split1_indent hg, Magres.split1_two hne hs hg'.1 hg'.2 (by rw [es]; simp) (by rw [es]; intro x hx; simp at hx; subst hx; exact hd)]
      rfl
    have hf := find_atoms ha (fun a h => (hat a h).1) [] [] (s.length + 1) (by intro c hc; cases hc) (by simp) (by have := atoms_length ha; omega)
    have hm := atoms_of hf hat []
    simp only [Bool.false_eq_true, if_false, hu, Castep.Delta.ok_bind]
    rw [Pat.finditer]
    rw [List.nil_append] at hm
    simp only [hm, Castep.Delta.ok_bind, ih (fun q hq => hok q (by simp [hq]))]
    rfl

end NonLinL
end Verif
