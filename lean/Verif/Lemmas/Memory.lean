import Verif.Lemmas.GeomTable
import Verif.Lemmas.CastepRows
import Verif.Lemmas.AtomTables
/-
Estimates of memory in a `.castep` file.
-/
namespace Verif.Castep
open Verif Spec Re NumRe AtomRe

set_option maxRecDepth 4000

def letters : CSet := ⟨false, [.range 65 90, .range 97 122, .ch 32], false⟩

abbrev MB (i : Nat) : Re := .seq (.rep false 1 none (.set sp)) (.seq (.group i N) (litRe (py" MB")))

theorem MEMORY_eq : MEMORY_RE.re = .seq (star sp) (.seq (.set (ch 124)) (.seq (.group 1 (plus letters)) (.seq (MB 2) (MB 3)))) := by
  decide +kernel

theorem MEMORY_names : MEMORY_RE.names = [(py"memory", 2), (py"disk", 3)] := by decide +kernel

/-- Characters of which one is needed for what follows. -/
theorem Gets.runBack {r : Re} {i : Nat} {cs : CSet} {w s : Str} {c : Nat} {pre caps C} (hw : ∀ x ∈ w, cs.has x = true) (hne : w ≠ []) (hc : cs.has c = true) (hs : Stops cs s)
    (hx : ∀ caps, run r ⟨c :: (w.reverse ++ pre), s, caps⟩ some = none) (h : Gets r (w.reverse ++ pre) (c :: s) ((i, w) :: caps) C) :
    Gets (.seq (.group i (plus cs)) r) pre (w ++ c :: s) caps C := by
  obtain ⟨t, h5, h6⟩ := h
  refine ⟨t, ?_, h6⟩
  rw [run_seq, run_group]
  cases w with
  | nil => exact absurd rfl hne
  | cons a w =>
    rw [List.cons_append, run_plus_cons _ _ _ _ (by simp) _ _ _ _ _ (hw a (by simp)), Option.map_none]
    refine Cell.run_star_back cs c hc s hs w (a :: pre) caps _ t (fun x hx => hw x (by simp [hx])) ?_ ?_
    · have := hx ((i, St.upTo ⟨pre, a :: (w ++ c :: s), caps⟩ ⟨c :: (w.reverse ++ a :: pre), s, caps⟩) :: caps)
      rw [List.reverse_cons, List.append_assoc] at this
      exact this
    · have e : (a :: w).reverse ++ pre = w.reverse ++ a :: pre := by simp
      rw [e] at h5
      have : St.upTo ⟨pre, a :: w ++ c :: s, caps⟩ ⟨w.reverse ++ a :: pre, c :: s, caps⟩ = a :: w := by
        rw [← e, upTo_append]
      dsimp only
      rw [show a :: (w ++ c :: s) = a :: w ++ c :: s from rfl, this]
      exact h5

theorem letters_has {c : Nat} (h : isAlpha c = true ∨ c = c!" ") : letters.has c = true := by
  rcases h with h | rfl
  · simp only [isAlpha, isUpper, isLower, Bool.or_eq_true, Bool.and_eq_true, decide_eq_true_eq] at h
    simp [letters, CSet.has, CItem.has]
    omega
  · decide

theorem num_letters {n : Numeral} (hn : n.Valid) (s : Str) : Stops letters (n.text ++ s) := by
  obtain ⟨c, r, e, hc⟩ := text_head n hn
  rw [e]
  intro x hx
  cases hx
  unfold numChar at hc
  simp only [isDigit, Bool.and_eq_true, decide_eq_true_eq] at hc
  simp [letters, CSet.has, CItem.has]
  omega

theorem mem_match {l : Str} {r : MemRow} (h : MemRow.Line l r) (hv : ∀ n ∈ r.nums, n.Valid) :
    ∃ m raw, MEMORY_RE.match_ l = some m ∧ m.caps = [(3, r.disk.text), (2, r.memory.text), (1, raw)] ∧ m.names = MEMORY_RE.names ∧ KeyName raw r.name := by
  obtain ⟨g0, raw, g, rest, rfl, h0, hne, hr, hk, hg, hgn⟩ := h
  obtain ⟨name, x, y⟩ := r
  have hx : x.Valid := hv x (by simp [MemRow.nums])
  have hy : y.Valid := hv y (by simp [MemRow.nums])
  obtain ⟨m, e1, e2, e3⟩ := Gets.match_ (p := MEMORY_RE) (C := (· = [(3, y.text), (2, x.text), (1, raw)]))
    (s := g0 ++ c!"|" :: (raw ++ c!" " :: (x.text ++ (py" MB" ++ (g ++ (y.text ++ (py" MB" ++ rest)))))))
    (by
      rw [MEMORY_eq]
      refine Gets.stars (blanks_sp h0) (stops_bar _) (Gets.char (by decide) (Gets.runBack (fun c hc => letters_has (hr c hc)) hne (by decide) (num_letters hx _) ?_ ?_))
      · intro caps
        rw [run_seq, run_seq, run_plus_stop _ _ _ _ _ _ _ _ (BandTab.stops_num hx _)]
      · refine .assoc ?_
        have := Gets.lfAt (r := .seq (litRe (py" MB")) (MB 3)) (i := 2) (n := x) (g := [c!" "]) (s := py" MB" ++ (g ++ (y.text ++ (py" MB" ++ rest))))
          (pre := raw.reverse ++ c!"|" :: (g0.reverse ++ [])) (caps := [(1, raw)]) (C := (· = [(3, y.text), (2, x.text), (1, raw)])) (by decide) (by simp) hx (EndsNumber.space (by decide)) ?_
        · exact Gets.congr (fun st k => by simp only [run_seq]) this
        · refine Gets.congr (Scf.litRe_then (by simp) _) (Gets.lit _ _ ?_)
          refine Gets.last (Gets.congr (b := .seq (LF 3) (litRe (py" MB"))) (fun st k => by simp only [run_seq, run_eps]) ?_)
          exact Gets.lfAt hg hgn hy (EndsNumber.space (by decide)) (Gets.last (Gets.congr (Scf.litRe_then (by simp) _) (Gets.lit _ _ (Gets.eps rfl)))))
  exact ⟨m, raw, e1, e2, e3, hk⟩

/-- Texts that agree up to the first of two characters that cannot be in them. -/
theorem cut_unique {P : Nat → Prop} {a a' b b' : Str} {c c' : Nat} (ha : ∀ x ∈ a, P x) (ha' : ∀ x ∈ a', P x) (hc : ¬ P c) (hc' : ¬ P c')
    (h : a ++ c :: b = a' ++ c' :: b') : a = a' ∧ c = c' ∧ b = b' := by
  induction a generalizing a' with
  | nil =>
    cases a' with
    | nil => simpa using h
    | cons x a' =>
      rw [List.nil_append, List.cons_append, List.cons.injEq] at h
      exact absurd (h.1 ▸ ha' x (by simp)) hc
  | cons x a ih =>
    cases a' with
    | nil =>
      rw [List.nil_append, List.cons_append, List.cons.injEq] at h
      exact absurd (h.1 ▸ ha x (by simp)) hc'
    | cons y a' =>
      rw [List.cons_append, List.cons_append, List.cons.injEq] at h
      obtain ⟨h1, h2, h3⟩ := ih (fun x hx => ha x (by simp [hx])) (fun x hx => ha' x (by simp [hx])) h.2
      exact ⟨by rw [h.1, h1], h2, h3⟩

theorem letters_iff {c : Nat} : letters.has c = true ↔ isAlpha c = true ∨ c = c!" " := by
  simp [letters, CSet.has, CItem.has, isAlpha, isUpper, isLower]
  omega

theorem mem_miss {l : Str} (h : MemRow.Other l) : MEMORY_RE.match_ l = none := by
  cases hm : MEMORY_RE.match_ l with
  | none => rfl
  | some m =>
    exfalso
    obtain ⟨b, e, hl⟩ := match_found hm
    rw [MEMORY_eq] at hl
    obtain ⟨u1, _, e1, h1, u2, _, rfl, h2, u3, _, rfl, h3, u4, _, rfl, ⟨v1, _, rfl, hv1, v2, v3, rfl, hv2, hv3⟩, h5⟩ := hl
    obtain ⟨n, hn, rfl⟩ := lang_N hv2
    rcases h with h | ⟨g0, a, c, b', e', hg, ha, hc1, hc2, hlast⟩
    · obtain ⟨p, d, q, e3, hd, -⟩ := lang_N_head hv2
      exact not_digit h ⟨d, by rw [e, e1, e3]; simp, hd⟩
    · obtain ⟨x, r, e3, hx⟩ := text_head n hn
      obtain ⟨hu1, -⟩ := (lang_rep_set _ _ _ _ _).1 h1
      obtain ⟨hu3, -⟩ := (lang_rep_set _ _ _ _ _).1 (show Lang (plus letters) u3 from h3)
      obtain ⟨hv, hvne, -⟩ := (lang_rep_set _ _ _ _ _).1 hv1
      obtain ⟨d, hd, rfl⟩ := h2
      have hd : d = c!"|" := by rw [has_ch] at hd; simpa using hd
      subst hd
      rw [e', e1, e3] at e
      simp only [List.append_assoc, List.cons_append, List.nil_append] at e
      obtain ⟨-, -, e⟩ := cut_unique (P := fun x => isSpace x = true) hg (fun y hy => by rw [← has_sp]; exact hu1 y hy) (by decide) (by decide) e
      rw [← List.append_assoc u3 v1] at e
      have hxl : isAlpha x = false ∧ isSpace x = false := by
        unfold numChar at hx
        rcases hx with hx | rfl | rfl | rfl
        · exact ⟨by simp [isDigit] at hx; simp [isAlpha, isUpper, isLower]; omega, isDigit_not_space hx⟩
        all_goals decide
      obtain ⟨rfl, -, -⟩ := cut_unique (P := fun x => isAlpha x = true ∨ isSpace x = true) (fun y hy => (ha y hy).imp id fun h => by rw [h]; decide)
        (fun y hy => by
          rcases List.mem_append.1 hy with hy | hy
          · exact (letters_iff.1 (hu3 y hy)).imp id fun h => by rw [h]; decide
          · exact Or.inr (by rw [← has_sp]; exact hv y hy)) (by simp [hc1, hc2]) (by simp [hxl]) e
      have hne : v1 ≠ [] := by rintro rfl; simp at hvne
      rw [List.getLastD_eq_getLast?, List.getLast?_append_of_ne_nil _ hne, List.getLast?_eq_getLast_of_ne_nil hne] at hlast
      have := hv _ (List.getLast_mem hne)
      rw [has_sp] at this
      rw [Option.getD_some, this] at hlast
      cases hlast

/-- A whole estimate. -/
theorem mem_block {fl : Numeral → F64} {ls : List Str} {rows : List MemRow} (h : Interleaved MemRow.Other MemRow.Line ls rows)
    (hr : ∀ r ∈ rows, ∀ n ∈ r.nums, n.Valid ∧ pyFloat n.text = .ok (fl n)) :
    process_memory_est ls = .ok (.dict (Dict.ofList (rows.map fun r => (Key.str r.name, r.info fl)))) := by
  rw [process_memory_est, collectDict, collect_rows (g := fun r : MemRow => some (Key.str r.name, r.info fl)) (fun l hl => by
    unfold onMatch; rw [mem_miss hl]) h fun l r hr' hl => ?_]
  · rw [List.filterMap_eq_map']; rfl
  · obtain ⟨m, raw, h1, h2, h3, h4⟩ := mem_match hl fun n hn => (hr r hr' n hn).1
    rw [MEMORY_names] at h3
    have e1 : m.named (py"memory") = some r.memory.text := by rw [Castep.named_eq h2 h3]; rfl
    have e2 : m.named (py"disk") = some r.disk.text := by rw [Castep.named_eq h2 h3]; rfl
    have e3 : m.group 1 = some raw := by
      show (m.caps.find? _).map _ = _
      rw [h2]; rfl
    unfold onMatch
    rw [h1]
    dsimp only
    simp only [grpFloat, grp, e1, e2, e3, Option.getD_some]
    rw [LineTab.keyName h4]
    have f1 : floatV r.memory.text = _ := LineTab.floatV_ok (hr r hr' r.memory (by simp [MemRow.nums])).2
    have f2 : floatV r.disk.text = _ := LineTab.floatV_ok (hr r hr' r.disk (by simp [MemRow.nums])).2
    simp only [bind, Except.bind, f1, f2]
    rfl

end Verif.Castep
