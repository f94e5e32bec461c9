import Verif.Lemmas.AtomRe
import Verif.Lemmas.MdEager
import Verif.Spec.MdFrame
import Verif.Props.Data
import Verif.Props.Numbers
/-
Reading one frame of a trajectory, line by line.
-/
namespace Verif.MdFrame
open Verif Verif.Spec Verif.Re Verif.NumRe Verif.AtomRe

/-- `TAG_RE` finds the tag of a line with no `<` before it. -/
theorem search_tag (a g tag tail : Str) (ha : c!"<" ∉ a) (hg : Blank g) (ht : tag ≠ [])
    (htw : ∀ c ∈ tag, isWord c = true) (htail : ∀ c, tail.head? = some c → isWord c = false) :
    ∃ m, Res.TAG_RE.search (a ++ (py"<--" ++ (g ++ (tag ++ tail)))) = some m ∧ m.named (py"tag") = some tag := by
  refine ⟨⟨a, py"<--" ++ (g ++ tag), tail, [(1, tag)], [(py"tag", 1)], 1⟩, ?_, rfl⟩
  have hno : ∀ u v, a = u ++ v → v ≠ [] →
      Res.TAG_RE.matchAt (u.reverse ++ []) (v ++ (py"<--" ++ (g ++ (tag ++ tail)))) = none := by
    intro u v e hv
    cases v with
    | nil => exact absurd rfl hv
    | cons c v =>
      have hc : c ≠ 60 := by rintro rfl; exact ha (by rw [e]; simp)
      rw [Pat.matchAt_eq, TAG_eq]
      simp only [List.cons_append, T]
      rw [run_seq, run_set_cons, has_ch, if_neg (by simpa using hc)]
      rfl
  have hm := Pat.matchAt_of Res.TAG_RE a.reverse (py"<--" ++ (g ++ tag)) tail [(1, tag)] (by
    rw [TAG_eq]
    have := run_T 1 g tag tail hg ht htw htail a.reverse [] some _ rfl
    simpa using this)
  rw [Pat.search, Pat.searchFrom_skip _ _ _ _ hno, List.append_nil]
  have e : py"<--" ++ (g ++ (tag ++ tail)) = py"<--" ++ (g ++ tag) ++ tail := by simp
  rw [e, Pat.searchFrom_of_matchAt hm, List.reverse_reverse, TAG_eq]

/-- Reading the index of an atom. -/
theorem intOfGroup_digits (idx : Str) (h : Numeral.AllDigits idx) (hne : idx ≠ []) :
    intOfGroup (some idx) = .ok (Numeral.nat idx : ℤ) := by
  have := (pyInt_isInt ⟨none, idx, none, none⟩ ⟨h, (show Numeral.AllDigits [] by intro c hc; cases hc), by simpa using hne, by simp⟩ ⟨rfl, rfl⟩).1
  simpa [intOfGroup, Numeral.text, Numeral.signText, Numeral.fracText, Numeral.expText, Numeral.sgn] using this

/-- `ATOMIC_DATA_TAG` on a per-atom line. -/
theorem match_atom (g : Str) (name : AtomName) (gi idx : Str) (x y z : Str × Numeral) (gt g' tag tail : Str)
    (h : (FLine.atom g name gi idx x y z gt g' tag tail).Ok) :
    ∃ m, Res.ATOMIC_DATA_TAG.match_ (FLine.atom g name gi idx x y z gt g' tag tail).text = some m ∧
      m.named (py"spec") = some name.text ∧ m.named (py"index") = some idx ∧ m.named (py"x") = some x.2.text ∧
      m.named (py"y") = some y.2.text ∧ m.named (py"z") = some z.2.text ∧ m.named (py"tag") = some tag := by
  obtain ⟨hg, hname, hgi, hgi', hidx', hidx, hxyz, hgt, hg', ht, htw, -, htail⟩ := h
  obtain ⟨hx1, hx2, hx3⟩ := hxyz x (by simp)
  obtain ⟨hy1, hy2, hy3⟩ := hxyz y (by simp)
  obtain ⟨hz1, hz2, hz3⟩ := hxyz z (by simp)
  obtain ⟨gx, x⟩ := x
  obtain ⟨gy, y⟩ := y
  obtain ⟨gz, z⟩ := z
  simp only at hx1 hx2 hx3 hy1 hy2 hy3 hz1 hz2 hz3
  have gapStop : ∀ (g rest : Str), Blank g → g ≠ [] → EndsNumber (g ++ rest) := by
    intro g rest hg hne
    cases g with
    | nil => exact absurd rfl hne
    | cons c g => exact EndsNumber.space (hg c (by simp))
  have hsp : ∀ c, isSpace c = true → c ≠ 91 ∧ isDigit c = false := by
    intro c hc
    simp [isSpace] at hc
    simp [isDigit]
    omega
  let w : Str := g ++ (name.text ++ (gi ++ (idx ++ (gapNum (gx, x) ++ (gapNum (gy, y) ++ (gapNum (gz, z) ++ (gt ++ (py"<--" ++
      (g' ++ tag)))))))))
  let caps := [(6, tag), (5, z.text), (4, y.text), (3, x.text), (2, idx), (1, name.text)]
  have hm := Pat.matchAt_of Res.ATOMIC_DATA_TAG [] w tail caps (by
    rw [ATOMIC_DATA_TAG_eq]
    have e : w ++ tail = g ++ (name.text ++ (gi ++ (idx ++ (gx ++ (x.text ++ (gy ++ (y.text ++ (gz ++ (z.text ++
        (gt ++ (py"<--" ++ (g' ++ (tag ++ tail))))))))))))) := by simp [w, gapNum]
    rw [e]
    simp only [DT]
    rw [run_seq]
    apply run_star_all sp g _ _ _ _ _ _ (fun c hc => by rw [has_sp]; exact hg c hc) (by
      intro c hc
      simp [AtomName.text] at hc
      subst hc
      have := hname.1
      rw [has_sp]; simp [isSpace]; omega) (by simp)
    rw [run_seq, run_group]
    apply run_A name hname
    · intro c hc
      have : c ∈ g.reverse ++ [] := List.mem_of_mem_head? hc
      exact isSpace_not_word (hg c (by simpa using this))
    · exact spaceNext_append hgi hgi'
    · intro _ p q hpq hp hq
      -- the first character after the blanks is a digit
      have h1 : ∀ (gi p : Str) (rest q : Str), gi ++ (idx ++ rest) = p ++ q → Blank gi → Blank p → q.head? ≠ some 91 := by
        intro gi
        induction gi with
        | nil =>
          intro p rest q e _ hp hq
          cases idx with
          | nil => exact hidx' rfl
          | cons d idx =>
            have hd : isDigit d = true := (isDigit_iff d).2 (hidx d (by simp))
            cases p with
            | nil =>
              simp at e; subst e; simp at hq; subst hq; cases hd
            | cons c p =>
              simp at e
              have := (hsp c (hp c (by simp))).2
              rw [← e.1, hd] at this; cases this
        | cons b gi ih =>
          intro p rest q e hgi hp hq
          cases p with
          | nil =>
            simp at e; subst e; simp at hq; exact (hsp b (hgi b (by simp))).1 hq
          | cons c p =>
            simp at e
            exact ih p rest q (by simpa using e.2) (fun c hc => hgi c (by simp [hc])) (fun c hc => hp c (by simp [hc])) hq
      exact h1 gi p _ q hpq hgi hp hq
    rw [run_seq]
    apply run_plus_all sp 1 gi _ _ _ _ _ _ (by cases gi with | nil => exact absurd rfl hgi' | cons c s => simp)
      (fun c hc => by rw [has_sp]; exact hgi c hc) (by
        intro c hc
        cases idx with
        | nil => exact absurd rfl hidx'
        | cons d idx =>
          simp at hc; subst hc
          rw [has_sp]; exact isDigit_not_space ((isDigit_iff d).2 (hidx d (by simp)))) (by simp)
    rw [run_seq, run_group]
    apply run_plus_all dig 1 idx _ _ _ _ _ _ (by cases idx with | nil => exact absurd rfl hidx' | cons c s => simp)
      (fun c hc => (allDigits_iff idx).1 hidx c hc) (gapStop gx _ hx1 hx2).stops (by simp)
    rw [run_seq]
    apply run_LF 3 gx x hx1 hx2 hx3 _ _ _ _ _ (gapStop gy _ hy1 hy2)
    rw [run_seq]
    apply run_LF 4 gy y hy1 hy2 hy3 _ _ _ _ _ (gapStop gz _ hz1 hz2)
    rw [run_seq]
    apply run_LF 5 gz z hz1 hz2 hz3 _ _ _ _ _ (by
      cases gt with
      | nil => exact ⟨by rintro c ⟨⟩; rfl, by simp, by simp, by simp⟩
      | cons c gt => exact EndsNumber.space (hgt c (by simp)))
    rw [run_seq]
    apply run_star_all sp gt _ _ _ _ _ _ (fun c hc => by rw [has_sp]; exact hgt c hc) (by
      intro c hc
      simp at hc
      subst hc
      rfl) (by simp)
    apply run_T 6 g' tag tail hg' ht htw htail
    simp only [upTo_append, caps, w, gapNum]
    simp)
  refine ⟨⟨[], w, tail, caps, [(py"spec", 1), (py"index", 2), (py"x", 3), (py"y", 4), (py"z", 5), (py"tag", 6)], 6⟩,
    ?_, rfl, rfl, rfl, rfl, rfl, rfl⟩
  rw [Pat.match_]
  have e : (FLine.atom g name gi idx (gx, x) (gy, y) (gz, z) gt g' tag tail).text = w ++ tail := by
    simp [FLine.text, w]
  rw [e, hm, ATOMIC_DATA_TAG_eq]
  rfl

/-- `ATOMIC_DATA_TAG` matches only where the first thing on the line is a capital letter. -/
theorem match_atom_none (g rest : Str) (hg : Blank g) (hne : ∀ c, rest.head? = some c → isSpace c = false ∧ isUpper c = false) :
    Res.ATOMIC_DATA_TAG.match_ (g ++ rest) = none := by
  rw [Pat.match_, Pat.matchAt_eq, ATOMIC_DATA_TAG_eq]
  simp only
  rw [run_none]; rfl
  intro w t hs hw
  exfalso
  obtain ⟨u, v, rfl, hu, a, b, rfl, ha, -⟩ := hw
  obtain ⟨a1, a2, rfl, ha1, a3, a4, rfl, ⟨c, hc, rfl⟩, -⟩ := ha
  obtain rfl : a1 = [] := ha1
  rw [lang_rep_set] at hu
  have hcu : isUpper c = true := by
    have := (has_upS c).1 hc
    simp [isUpper]; omega
  have hcs : isSpace c = false := by
    have := (has_upS c).1 hc
    simp [isSpace]; omega
  have hp := hs.post
  simp only [List.nil_append, List.cons_append, List.append_assoc] at hp
  have key : ∀ (g u q : Str), Blank g → Blank u → g ++ rest = u ++ c :: q → False := by
    intro g
    induction g with
    | nil =>
      intro u q _ hu e
      cases u with
      | nil => simp at e; have := (hne c (by rw [e]; rfl)).2; rw [hcu] at this; cases this
      | cons d u => simp at e; have := (hne d (by rw [e]; rfl)).1; rw [hu d (by simp)] at this; cases this
    | cons b g ih =>
      intro u q hg hu e
      cases u with
      | nil => simp at e; have := hg b (by simp); rw [e.1, hcs] at this; cases this
      | cons d u =>
        simp at e
        exact ih u q (fun c hc => hg c (by simp [hc])) (fun c hc => hu c (by simp [hc])) e.2
  exact key g u _ hg (fun d hd => by rw [← has_sp]; exact hu.1 d hd) hp

/-- No tag is found where there is no `<`. -/
theorem search_tag_none (s : Str) (h : c!"<" ∉ s) : Res.TAG_RE.search s = none := by
  rcases Pat.search_spec Res.TAG_RE s with ⟨h1, -⟩ | ⟨u, v, x, e, h1, h2, -⟩
  · exact h1
  · exfalso
    obtain ⟨e2, -, hl, -⟩ := Pat.matchAt_some h2
    rw [TAG_eq] at hl
    obtain ⟨a, b, hab, ⟨c, hc, rfl⟩, -⟩ := hl
    rw [has_ch] at hc
    have : c = 60 := by simpa using hc
    apply h
    rw [e, e2, hab, this]; simp

theorem get_numbers_none (s : Str) (h : NoDigits s) : Res.get_numbers s = [] := by
  show (Res.NUMBER_RE.findFrom _ [] s).map _ = []
  rw [Pat.findFrom_nil _ _ _ _ (num_tail_none s [] h)]; rfl

/-- Numbers with the gap after each instead of the gap before. -/
def shift : List (Str × Numeral) → Str → List (Numeral × Str)
  | [], _ => []
  | [(_, n)], t => [(n, t)]
  | (_, n) :: (g, n') :: r, t => (n, g) :: shift ((g, n') :: r) t

theorem shift_fst (ns : List (Str × Numeral)) (t : Str) : (shift ns t).map (fun p => p.1.text) = ns.map fun p => p.2.text := by
  induction ns with
  | nil => rfl
  | cons p ns ih =>
    cases ns with
    | nil => rfl
    | cons q ns => simp [shift] at ih ⊢; exact ih

theorem shift_text (p : Str × Numeral) (ns : List (Str × Numeral)) (t : Str) :
    (p :: ns).flatMap gapNum ++ t = p.1 ++ (shift (p :: ns) t).flatMap fun q => q.1.text ++ q.2 := by
  induction ns generalizing p with
  | nil => simp [gapNum, shift]
  | cons q ns ih =>
    have := ih q
    rw [List.flatMap_cons, List.append_assoc, this]
    simp [gapNum, shift]

theorem shift_valid (ns : List (Str × Numeral)) (t : Str) (h : ∀ p ∈ ns, p.2.Valid) :
    ∀ p ∈ shift ns t, p.1.Valid := by
  induction ns with
  | nil => simp [shift]
  | cons p ns ih =>
    cases ns with
    | nil => simpa [shift] using h
    | cons q ns =>
      intro x hx
      simp only [shift, List.mem_cons] at hx
      rcases hx with rfl | hx
      · exact h p (by simp)
      · exact ih (fun p hp => h p (by simp [hp])) x hx

theorem shift_between (p : Str × Numeral) (ns : List (Str × Numeral)) (t : Str)
    (h : ∀ q ∈ ns, Blank q.1 ∧ q.1 ≠ []) : ∀ q ∈ (shift (p :: ns) t).dropLast, Blank q.2 ∧ q.2 ≠ [] := by
  induction ns generalizing p with
  | nil => simp [shift]
  | cons q ns ih =>
    intro x hx
    have hne : shift (q :: ns) t ≠ [] := by cases ns <;> simp [shift]
    rw [shift, List.dropLast_cons_of_ne_nil hne] at hx
    rcases List.mem_cons.1 hx with rfl | hx
    · exact h q (by simp)
    · exact ih q (fun q' hq => h q' (by simp [hq])) x hx

theorem shift_last (p : Str × Numeral) (ns : List (Str × Numeral)) (t : Str) :
    ∀ q, (shift (p :: ns) t).getLast? = some q → q.2 = t := by
  induction ns generalizing p with
  | nil => simp [shift]
  | cons q ns ih =>
    intro x hx
    have hne : shift (q :: ns) t ≠ [] := by cases ns <;> simp [shift]
    rw [shift, List.getLast?_cons_of_ne_nil hne] at hx
    exact ih q x hx

theorem space_facts {c : Nat} (hc : isSpace c = true) : ¬ (48 ≤ c ∧ c ≤ 57) ∧ c ∉ py"+-.Ee" ∧ c ∉ py"+-." ∧ c ≠ 60 := by
  simp [isSpace] at hc
  simp
  omega

theorem get_numbers_row (ns : List (Str × Numeral)) (t : Str) (hb : ∀ p ∈ ns, Blank p.1 ∧ p.2.Valid)
    (hne : ∀ p ∈ ns.tail, p.1 ≠ []) (ht : FLine.NoDigit t) (ht' : ∀ c, t.head? = some c → c ∉ py"+-.Ee") :
    Res.get_numbers (ns.flatMap gapNum ++ t) = ns.map fun p => p.2.text := by
  cases ns with
  | nil =>
    rw [List.flatMap_nil, List.nil_append, get_numbers_none]; rfl
    intro c hc
    cases hh : isDigit c with
    | false => rfl
    | true => exact absurd ((isDigit_iff c).1 hh) (ht c hc)
  | cons p ns =>
    rw [shift_text, Props.C30_complete _ _ _ (shift_valid _ _ fun p hp => (hb p hp).2), shift_fst]
    · intro q hq
      obtain ⟨h1, h2⟩ := shift_between p ns t (fun q hq => ⟨(hb q (by simp [hq])).1, hne q (by simpa using hq)⟩) q hq
      exact ⟨h2, fun c hc => (space_facts (h1 c hc)).1, fun c hc => (space_facts (h1 c (List.mem_of_mem_head? hc))).2.1,
        fun c hc => (space_facts (h1 c (List.mem_of_getLast? hc))).2.2.1⟩
    · intro q hq
      rw [shift_last p ns t q hq]
      exact ⟨ht, ht'⟩
    · have h1 := (hb p (by simp)).1
      exact ⟨fun c hc => (space_facts (h1 c hc)).1, fun c hc => (space_facts (h1 c (List.mem_of_getLast? hc))).2.2.1⟩

/-- A printed number is a word of the pattern. -/
theorem numeral_lang (n : Numeral) (hn : n.Valid) : Lang N n.text := by
  have h := run_N n hn [] [] [] some _ (by simp) EndsNumber.nil rfl
  obtain ⟨t, w, hs, hl, hk⟩ := run_some h
  have hk := Option.some.inj hk
  have hp := hs.post
  rw [hk] at hp
  simp at hp
  rw [hp]; exact hl

/-- `val` gives the doubles the numbers are read as. -/
def Reads (val : Numeral → F64) (ns : List Numeral) : Prop :=
  ∀ n ∈ ns, n.Valid ∧ parse_float_or_rational n.text = .ok (val n)

theorem to_type_reads {val : Numeral → F64} {n : Numeral} (h : parse_float_or_rational n.text = .ok (val n)) :
    to_type .float (.str n.text) = .ok (.float (val n)) := by
  simp [to_type, typeParser, h, Except.map]

theorem toTypeList_reads {val : Numeral → F64} {ns : List Numeral}
    (h : ∀ n ∈ ns, parse_float_or_rational n.text = .ok (val n)) :
    toTypeList .float (ns.map fun n => .str n.text) = .ok (ns.map fun n => .float (val n)) := by
  induction ns with
  | nil => rfl
  | cons n ns ih =>
    rw [List.map_cons, toTypeList, to_type_reads (h n (by simp)), ih fun m hm => h m (by simp [hm])]
    rfl

theorem no_lt_numeral (n : Numeral) (hn : n.Valid) : c!"<" ∉ n.text := by
  obtain ⟨sg, ip, fr, ex⟩ := n
  obtain ⟨h1, h2, -, h4⟩ := hn
  have hd : ∀ s, Numeral.AllDigits s → c!"<" ∉ s := fun s hs hc => by have := hs _ hc; omega
  have hs : ∀ sg, c!"<" ∉ Numeral.signText sg := by intro sg; rcases sg with _ | _ | _ <;> decide
  simp only [Numeral.text, List.mem_append, not_or]
  refine ⟨⟨⟨hs sg, hd _ h1⟩, ?_⟩, ?_⟩
  · cases fr with
    | none => simp [Numeral.fracText]
    | some ds => simp only [Numeral.fracText, List.mem_cons, not_or]; exact ⟨by decide, hd _ h2⟩
  · cases ex with
    | none => simp [Numeral.expText]
    | some e =>
      obtain ⟨up, sg', ds⟩ := e
      have := h4 _ rfl
      simp only [Numeral.expText, List.mem_append, not_or]
      exact ⟨⟨by cases up <;> decide, hs sg'⟩, hd _ this.1⟩

theorem no_lt_blank {g : Str} (h : Blank g) : c!"<" ∉ g := fun hc => (space_facts (h _ hc)).2.2.2 rfl

theorem no_lt_row (ns : List (Str × Numeral)) (hb : ∀ p ∈ ns, Blank p.1 ∧ p.2.Valid) : c!"<" ∉ ns.flatMap gapNum := by
  simp only [List.mem_flatMap, not_exists, not_and]
  intro p hp
  simp only [gapNum, List.mem_append, not_or]
  exact ⟨no_lt_blank (hb p hp).1, no_lt_numeral _ (hb p hp).2⟩

theorem no_lt_name (a : AtomName) (h : a.Valid) (hl : a.label = none) : c!"<" ∉ a.text := by
  obtain ⟨up, low, cust, lab⟩ := a
  obtain ⟨h1, h2, h3, -⟩ := h
  obtain rfl : lab = none := hl
  simp only [AtomName.text, AtomName.labelText, List.append_nil, List.cons_append, List.mem_cons, List.mem_append, not_or]
  simp only at h1 h2 h3
  refine ⟨by omega, fun hc => by have := h2.2 _ hc; omega, ?_⟩
  cases cust with
  | none => simp [AtomName.customText]
  | some s =>
    simp only [AtomName.customText, List.mem_cons, not_or]
    exact ⟨by decide, fun hc => by have := (h3 s rfl).2 _ hc; revert this; decide⟩

theorem not_blank_of_mem {s : Str} {c : Nat} (hc : c ∈ s) (h : isSpace c = false) : ¬ Blank s := fun hb => by
  rw [hb c hc] at h; cases h

theorem numeral_not_blank (n : Numeral) (hn : n.Valid) : ∃ c ∈ n.text, isSpace c = false := by
  obtain ⟨sg, ip, fr, ex⟩ := n
  obtain ⟨h1, h2, h3, -⟩ := hn
  have hd : ∀ c, (48 ≤ c ∧ c ≤ 57) → isSpace c = false := fun c hc => isDigit_not_space ((isDigit_iff c).2 hc)
  cases ip with
  | cons c ip => exact ⟨c, by simp [Numeral.text], hd c (h1 c (by simp))⟩
  | nil =>
    cases fr with
    | none => simp at h3
    | some ds =>
      cases ds with
      | nil => simp at h3
      | cons c ds => exact ⟨c, by simp [Numeral.text, Numeral.fracText], hd c (h2 c (by simp))⟩

/-- A tag is found wherever there is one. -/
theorem search_tag_some (a g tag tail : Str) (hg : Blank g) (ht : tag ≠ []) (htw : ∀ c ∈ tag, isWord c = true)
    (htail : ∀ c, tail.head? = some c → isWord c = false) :
    ∃ m, Res.TAG_RE.search (a ++ (py"<--" ++ (g ++ (tag ++ tail)))) = some m := by
  rcases Pat.search_spec Res.TAG_RE (a ++ (py"<--" ++ (g ++ (tag ++ tail)))) with ⟨-, h1⟩ | ⟨u, v, x, e, h1, -, -⟩
  · exfalso
    have h2 := h1 a _ rfl
    have hm := Pat.matchAt_of Res.TAG_RE a.reverse (py"<--" ++ (g ++ tag)) tail [(1, tag)] (by
      rw [TAG_eq]
      have := run_T 1 g tag tail hg ht htw htail a.reverse [] some _ rfl
      simpa using this)
    have e : py"<--" ++ (g ++ (tag ++ tail)) = py"<--" ++ (g ++ tag) ++ tail := by simp
    rw [e, hm] at h2
    cases h2
  · exact ⟨x, h1⟩

open MdGeom

theorem step_time (curr : Dict Key PyVal) {val : Numeral → F64} (g : Str) (n : Numeral) (tail : Str)
    (h : (FLine.time g n tail).Ok) (hv : Reads val [n]) :
    step curr (FLine.time g n tail).text = .ok (curr.set (.str (py"time")) (.float (val n))) := by
  obtain ⟨hg, hn, ht⟩ := h
  have hv := (hv n (by simp)).2
  have hnb : ¬ Blank (FLine.time g n tail).text := by
    obtain ⟨c, hc, hs⟩ := numeral_not_blank n hn
    exact not_blank_of_mem (c := c) (by simp [FLine.text, hc]) hs
  have hlt : c!"<" ∉ (FLine.time g n tail).text := by
    simp only [FLine.text, List.mem_append, not_or]
    exact ⟨⟨no_lt_blank hg, no_lt_numeral n hn⟩, no_lt_blank ht⟩
  rw [step, if_neg (by rw [strip_isEmpty]; exact hnb), search_tag_none _ hlt]
  have hnum : Res.get_numbers (FLine.time g n tail).text = [n.text] := by
    have := get_numbers_row [(g, n)] tail (by simpa using ⟨hg, hn⟩) (by simp)
      (fun c hc => (space_facts (ht c hc)).1) (fun c hc => (space_facts (ht c (List.mem_of_mem_head? hc))).2.1)
    simpa [gapNum, FLine.text] using this
  simp only [timeOf, hnum, to_type_reads hv]
  rfl

theorem step_glob (curr : Dict Key PyVal) {val : Numeral → F64} (ns : List (Str × Numeral)) (g g' tag tail : Str)
    (h : (FLine.glob ns g g' tag tail).Ok) (hv : Reads val (FLine.glob ns g g' tag tail).numerals) :
    step curr (FLine.glob ns g g' tag tail).text =
      appendTo curr (.str tag) (.list (ns.map fun p => .float (val p.2))) := by
  obtain ⟨hns, hne, hg, hg', ⟨ht, htw, -, htail⟩, hd1, hd2⟩ := h
  let a := ns.flatMap gapNum ++ g
  have ea : (FLine.glob ns g g' tag tail).text = a ++ (py"<--" ++ (g' ++ (tag ++ tail))) := by simp [FLine.text, a]
  have hnb : ¬ Blank (FLine.glob ns g g' tag tail).text :=
    not_blank_of_mem (c := 60) (by rw [ea]; simp) rfl
  have hlt : c!"<" ∉ a := by
    simp only [a, List.mem_append, not_or]; exact ⟨no_lt_row ns hns, no_lt_blank hg⟩
  obtain ⟨m, hm, hmt⟩ := search_tag a g' tag tail hlt hg' ht htw htail
  have hatom : Res.ATOMIC_DATA_TAG.match_ (FLine.glob ns g g' tag tail).text = none := by
    cases ns with
    | nil =>
      exact match_atom_none g _ hg (by intro c hc; simp at hc; subst hc; exact ⟨rfl, rfl⟩)
    | cons p ns =>
      have := match_atom_none p.1 (p.2.text ++ (ns.flatMap gapNum ++ (g ++ (py"<--" ++ (g' ++ (tag ++ tail)))))) (hns p (by simp)).1 (by
        intro c hc
        obtain ⟨u, d, v, e, hd, hu⟩ := lang_N_head (numeral_lang p.2 (hns p (by simp)).2)
        rw [e] at hc
        cases u with
        | nil =>
          simp at hc; subst hc
          refine ⟨isDigit_not_space hd, ?_⟩
          rw [isDigit_iff] at hd; simp [isUpper]; omega
        | cons b u =>
          simp at hc; subst hc
          rcases hu b (by simp) with rfl | rfl | rfl <;> decide)
      simpa [FLine.text, gapNum] using this
  have hnum : Res.get_numbers (FLine.glob ns g g' tag tail).text = ns.map fun p => p.2.text := by
    apply get_numbers_row ns _ hns hne
    · intro c hc
      simp only [List.mem_append] at hc
      rcases hc with hc | hc | hc | hc | hc
      · exact (space_facts (hg c hc)).1
      · revert hc; revert c; decide
      · exact (space_facts (hg' c hc)).1
      · exact hd1 c hc
      · exact hd2 c hc
    · intro c hc
      cases g with
      | nil => simp at hc; subst hc; decide
      | cons b g => simp at hc; subst hc; exact (space_facts (hg b (by simp))).2.1
  rw [step, if_neg (by rw [strip_isEmpty]; exact hnb)]
  simp only [hatom]
  rw [ea, hm]
  simp only
  rw [← ea, rowOf, hnum]
  have e2 : ns.map (fun p => p.2.text) = (ns.map Prod.snd).map fun n => n.text := by simp
  rw [e2, List.map_map]
  have := toTypeList_reads (val := val) (ns := ns.map Prod.snd) (fun n hn => (hv n hn).2)
  rw [show (PyVal.str ∘ fun n : Numeral => n.text) = fun n : Numeral => PyVal.str n.text from rfl, to_type, this]
  show appendTo curr (tagKey m) _ = _
  simp [tagKey, hmt, Function.comp_def]

theorem step_atom (curr : Dict Key PyVal) {val : Numeral → F64} (g : Str) (name : AtomName) (gi idx : Str)
    (x y z : Str × Numeral) (gt g' tag tail : Str)
    (h : (FLine.atom g name gi idx x y z gt g' tag tail).Ok) (hv : Reads val [x.2, y.2, z.2]) :
    step curr (FLine.atom g name gi idx x y z gt g' tag tail).text =
      setIon curr (.tup [.str name.text, .int (Numeral.nat idx)]) (.str tag)
        (.tuple [.float (val x.2), .float (val y.2), .float (val z.2)]) := by
  obtain ⟨m, hm, h1, h2, h3, h4, h5, h6⟩ := match_atom g name gi idx x y z gt g' tag tail h
  obtain ⟨hg, hname, hgi, hgi', hidx', hidx, hxyz, hgt, hg', ht, htw, -, htail⟩ := h
  let a := g ++ (name.text ++ (gi ++ (idx ++ (gapNum x ++ (gapNum y ++ (gapNum z ++ gt))))))
  have ea : (FLine.atom g name gi idx x y z gt g' tag tail).text = a ++ (py"<--" ++ (g' ++ (tag ++ tail))) := by
    simp [FLine.text, a]
  have hnb : ¬ Blank (FLine.atom g name gi idx x y z gt g' tag tail).text :=
    not_blank_of_mem (c := 60) (by rw [ea]; simp) rfl
  obtain ⟨tm, htm⟩ := search_tag_some a g' tag tail hg' ht htw htail
  rw [step, if_neg (by rw [strip_isEmpty]; exact hnb), hm]
  rw [ea, htm]
  simp only
  rw [atreg_match, h2, intOfGroup_digits idx hidx hidx', h1]
  have hvec := toTypeList_reads (val := val) (ns := [x.2, y.2, z.2]) (fun n hn => (hv n hn).2)
  have e : (Res.FST_D.map fun d => optStr (m.named d)) = [x.2, y.2, z.2].map fun n => .str n.text := by
    simp [Res.FST_D, h3, h4, h5, optStr]
  rw [e, to_type, hvec]
  show setIon curr _ (tagKey m) _ = _
  simp [tagKey, h6]

end Verif.MdFrame
