import Verif.Spec.PsEnergy
import Verif.Lemmas.Elastic
import Verif.Lemmas.DeltaScf
import Verif.Lemmas.Scf
import Verif.Lemmas.LineTables
import Verif.Lemmas.BandTable
import Verif.Lemmas.SpecPot
/-
The report on a pseudoatom.
-/
namespace Verif.Castep.PsEn
open Verif Re NumRe AtomRe Spec

abbrev upS : CSet := cset [.range 65 90]
abbrev loS : CSet := cset [.range 97 122]
abbrev shS : CSet := cset [.ch 115, .ch 112, .ch 100, .ch 102]

def SH : Re := .group 2 (.seq (plus sp) (.seq (.set dig) (.seq (.set shS) (.rep true 0 (some 2) (.set dig)))))
def PS : Re := .seq (star sp) (litThen (py"Pseudo atomic calculation performed for ")
  (.seq (.group 1 (.seq (.set upS) (.rep true 0 (some 2) (.set loS)))) (.rep true 1 none SH)))

theorem PS_eq : Res.PS_SHELL_RE = ⟨PS, [(py"spec", 1)], 2⟩ := by decide +kernel

theorem has_up (c : Nat) : CSet.has upS c = true ↔ 65 ≤ c ∧ c ≤ 90 := by simp [CSet.has, CItem.has]
theorem has_lo (c : Nat) : CSet.has loS c = true ↔ 97 ≤ c ∧ c ≤ 122 := by simp [CSet.has, CItem.has]

/-- The shells. -/
theorem shells {g r pre : Str} {x y : Nat} {caps : List (Nat × Str)} (hg : AtomVec.Gap g) (hx : 48 ≤ x ∧ x ≤ 57) (hy : y ∈ py"spdf") :
    ∃ t, run (.rep true 1 none SH) ⟨pre, g ++ x :: y :: r, caps⟩ some = some t := by
  have h : (run (.rep true 1 none SH) ⟨pre, g ++ x :: y :: r, caps⟩ some).isSome = true := by
    rw [isSome_plus]
    cases hr : run SH ⟨pre, g ++ x :: y :: r, caps⟩ (fun t => if t.post.length < (g ++ x :: y :: r).length then some t else none) with
    | some => rfl
    | none =>
      exfalso
      have hd : isDigit x = true := (isDigit_iff x).2 hx
      have hm : ∃ t, t ∈ m SH ⟨pre, g ++ x :: y :: r, caps⟩ ∧ t.post.length ≤ r.length := by
        refine ⟨_, Cell.Pspot.group_mem (Cell.Pspot.seq_mem (Cell.Pspot.plus_mem hg.2 (fun c hc => by rw [has_sp]; exact hg.1 c hc) pre (x :: y :: r) caps)
          (Cell.Pspot.seq_mem (Cell.Pspot.set_mem (by rw [has_dig]; exact hd) _ _ _) (Cell.Pspot.seq_mem (Cell.Pspot.set_mem ?_ _ _ _)
            ((mem_m_repM _ _ _ _ _ _).2 (.inr ⟨rfl, rfl⟩))))), le_rfl⟩
        have : ∀ y ∈ py"spdf", CSet.has shS y = true := by decide
        exact this y hy
      obtain ⟨t, h1, h2⟩ := hm
      rw [run, List.findSome?_eq_none_iff] at hr
      have := hr t h1
      rw [if_pos (by simp; omega)] at this
      cases this
  exact Option.isSome_iff_exists.1 h

/-- The species of the title. -/
theorem title {l spec : Str} (h : PsEnergy.Title l spec) (hs : PsEnergy.Species spec) :
    ∃ x, Res.PS_SHELL_RE.search l = some x ∧ grpKey x (py"spec") = .str spec := by
  obtain ⟨g, g', d, c, r, rfl, hg, hg', hd, hc⟩ := h
  obtain ⟨u, lo, rfl, hu, hlen, hlo⟩ := hs
  have key : Gets PS [] (g ++ (py"Pseudo atomic calculation performed for " ++ (u :: lo ++ (g' ++ d :: c :: r)))) []
      (fun cp => (cp.find? (·.1 = 1)).map (·.2) = some (u :: lo)) := by
    refine Gets.stars (fun y hy => by rw [has_sp]; exact hg y hy) (by intro y hy; simp at hy; subst hy; decide) ?_
    refine Gets.lit _ _ ?_
    obtain ⟨t, ht⟩ := shells (pre := lo.reverse ++ u :: ((py"Pseudo atomic calculation performed for ").reverse ++ (g.reverse ++ [])))
      (caps := [(1, u :: lo)]) (r := r) hg' hd hc
    refine ⟨t, ?_, ?_⟩
    · rw [run_seq, run_group, run_seq, List.cons_append, run_set_cons, if_pos ((has_up u).2 hu)]
      obtain ⟨y, g2, e⟩ := List.exists_cons_of_ne_nil hg'.2
      refine run_star_all loS lo _ _ (some 2) _ _ _ (fun y hy => (has_lo y).2 (hlo y hy)) ?_ (by intro M hM; simp at hM; omega) ?_
      · intro z hz
        rw [e] at hz
        simp at hz; subst hz
        rw [Bool.eq_false_iff]
        intro h
        have h1 := (has_lo y).1 h
        have h2 := hg'.1 y (by rw [e]; simp)
        simp [isSpace] at h2
        omega
      · have eu : St.upTo ⟨(py"Pseudo atomic calculation performed for ").reverse ++ (g.reverse ++ []), u :: (lo ++ (g' ++ d :: c :: r)), []⟩
            ⟨lo.reverse ++ u :: ((py"Pseudo atomic calculation performed for ").reverse ++ (g.reverse ++ [])), g' ++ d :: c :: r, []⟩ = u :: lo :=
          Verif.Re.upTo_append _ (u :: lo) (g' ++ d :: c :: r) [] _ []
        simp only [eu]
        exact ht
    · obtain ⟨t', w, hst, -, hk⟩ := run_some ht
      cases hk
      obtain ⟨new, e1, e2⟩ := hst.caps
      rw [e1]
      have hnone : new.find? (fun p => p.1 = 1) = none := by
        rw [List.find?_eq_none]
        intro p hp
        obtain ⟨q, hq, -⟩ := e2 p hp
        simp [groupsOf, SH] at hq
        simp [hq.1]
      rw [List.find?_append, hnone]
      rfl
  obtain ⟨x, h1, h2, h3⟩ := Gets.match_ (p := Res.PS_SHELL_RE) (by rw [PS_eq]; exact key)
  refine ⟨x, search_of_match h1, ?_⟩
  have hn : x.named (py"spec") = some (u :: lo) := by
    rw [Match.named, h3, PS_eq]
    exact h2
  rw [grpKey, hn]

/-- The lines on charge spilling. -/
theorem spills {fl : Numeral → F64} {c : F64} (hc : pyFloat (py"0.01") = .ok c) (hfl : ∀ n : Numeral, n.Valid → n.InRange → pyFloat n.text = .ok (fl n))
    {ls : List Str} {ns : List Numeral} (h : PsEnergy.Spills ls ns) : ∀ acc,
    foldLines spillLine acc ls = .ok (acc ++ ns.map fun n => .float (F64.mul c (fl n))) := by
  induction h with
  | nil => intro acc; simp [foldLines]
  | other h1 _ ih =>
    intro acc
    rw [foldLines, spillLine, Delta.occ_not h1]
    exact ih acc
  | @line l ls ms n ns h1 h2 h3 h4 _ ih =>
    intro acc
    have e : last_ (Res.get_numbers l) = .ok n.text := by
      rw [Elastic.get_numbers_of h2 h3, last_, List.map_append]
      simp
    rw [foldLines, spillLine, Delta.occ h1]
    simp only [if_true, e, hfl n (h3 n (by simp)) h4, hc, Delta.ok_bind]
    show (Except.ok (acc ++ [.float (F64.mul c (fl n))]) >>= fun s => foldLines spillLine s ls) = _
    rw [Delta.ok_bind, ih]
    simp

end Verif.Castep.PsEn
