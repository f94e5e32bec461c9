import Mathlib.Tactic.IntervalCases
import Verif.Model.Tables
import Verif.Spec.Epme
import Verif.Lemmas.Magres
/-
`.epme` files.
-/
namespace Verif.Epme
open Verif Spec

variable {rd fl : Numeral → F64}

def vecOf (rd : Numeral → F64) (ns : List Numeral) : PyVal := .tuple (ns.map fun n => .float (rd n))

def pairOf (rd : Numeral → F64) (k : List Numeral × List Numeral) : PyVal × PyVal := (vecOf rd k.1, vecOf rd k.2)

theorem no_pair {l : Str} {r : EpRow} {m : Nat} {more : List Str} (hb : r.branch.Valid)
    (hf : Fields l (r.words.take m ++ more)) (hm : more = [] ∨ m ≠ 0) : Str.startsWith l (py"Electron-Phonon coupling") = false := by
  cases m with
  | zero =>
    rcases hm with rfl | hm
    · have := blank_of_fields hf
      cases l with
      | nil => rfl
      | cons c l =>
        have hc := this c (by simp)
        rw [← Bool.not_eq_true]
        intro h
        change (69 == c && _) = true at h
        rw [Bool.and_eq_true, beq_iff_eq] at h
        rw [← h.1] at hc
        revert hc; decide
    · exact absurd rfl hm
  | succ m =>
    have e : r.words = r.branch.text :: r.words.tail := rfl
    rw [e, List.take_succ_cons, List.cons_append] at hf
    obtain ⟨c, t, h1, h2⟩ := text_head r.branch hb
    rw [← Bool.not_eq_true]
    intro h
    have h3 : Str.startsWith l (py"Electron-Phonon") = true := by
      rw [Str.startsWith, List.isPrefixOf_iff_prefix] at h ⊢
      exact List.IsPrefix.trans ⟨py" coupling", by decide⟩ h
    rw [Magres.starts_word hf (by decide) (by decide)] at h3
    · cases h3
    · rw [h1]
      rw [← Bool.not_eq_true]
      intro h
      change (69 == c && _) = true at h
      rw [Bool.and_eq_true, beq_iff_eq] at h
      rw [← h.1] at h2
      revert h2; unfold numChar; decide

theorem floats_to {ns : List Numeral} (h : ∀ n ∈ ns, parse_float_or_rational n.text = .ok (rd n)) :
    to_type .float (strList (ns.map Numeral.text)) = .ok (vecOf rd ns) :=
  to_type_strList .float ns Numeral.text (fun n => .float (rd n)) fun n hn => typeParser_float (h n hn)

theorem ints_to {ns : List Numeral} (h : ∀ n ∈ ns, n.Valid ∧ n.IsInt) :
    to_type .int (strList (ns.map Numeral.text)) = .ok (.tuple (ns.map fun n => .int (intOf n))) :=
  to_type_strList .int ns Numeral.text (fun n => .int (intOf n)) fun n hn => typeParser_int (h n hn).1 (h n hn).2

theorem slices {r : EpRow} (h1 : r.velI.length = 3) (h2 : r.velF.length = 3) {m : Nat} (hm : 5 ≤ m) (hm' : m ≤ 13) {more : List Str}
    (hmore : more = [] ∨ m = 13) :
    (r.words.take m ++ more).take 3 = r.ints.map Numeral.text ∧
    ((r.words.take m ++ more).drop 3).take 2 = [r.energyI, r.energyF].map Numeral.text ∧
    ((r.words.take m ++ more).drop 5).take 3 = (r.velI.take (m - 5)).map Numeral.text ∧
    ((r.words.take m ++ more).drop 8).take 3 = (r.velF.take (m - 8)).map Numeral.text ∧
    ((r.words.take m ++ more).drop 11).take 2 = ([r.re, r.im].take (m - 11)).map Numeral.text := by
  obtain ⟨ph, bi, bf, ei, ef, v, w, re, im⟩ := r
  dsimp only at h1 h2
  obtain ⟨a, b, c, rfl⟩ := List.length_eq_three.1 h1
  obtain ⟨d, e, f, rfl⟩ := List.length_eq_three.1 h2
  rcases hmore with rfl | rfl
  · interval_cases m <;> exact ⟨rfl, rfl, rfl, rfl, rfl⟩
  · exact ⟨rfl, rfl, rfl, rfl, rfl⟩

theorem row_of {r : EpRow} (hk : r.Ok) (hr : ∀ n ∈ r.floats, parse_float_or_rational n.text = .ok (rd n)) {k : List Numeral × List Numeral}
    {m : Nat} (hm : 5 ≤ m) (hm' : m ≤ 13) {more : List Str} (hmore : more = [] ∨ m = 13) {l : Str} (hf : Fields l (r.words.take m ++ more)) :
    row (pairOf rd k) l = .ok (r.cut rd k m) := by
  obtain ⟨s1, s2, s3, s4, s5⟩ := slices hk.1 hk.2.1 hm hm' hmore
  rw [row, (fields_iff _ _).1 hf]
  dsimp only
  rw [s1, s2, s3, s4, s5, ints_to hk.2.2.1, floats_to (rd := rd), floats_to (rd := rd), floats_to (rd := rd), floats_to (rd := rd)]
  · show (complexOf _ >>= _) = _
    have : complexOf (vecOf rd ([r.re, r.im].take (m - 11))) =
        .ok (.complex (if 12 ≤ m then rd r.re else ⟨0⟩) (if 13 ≤ m then rd r.im else ⟨0⟩)) := by
      interval_cases m <;> rfl
    rw [this]
    rfl
  · intro n hn; exact hr n (by have := List.mem_of_mem_take hn; simp [EpRow.floats] at this ⊢; tauto)
  · intro n hn; exact hr n (by have := List.mem_of_mem_take hn; simp [EpRow.floats] at this ⊢; tauto)
  · intro n hn; exact hr n (by have := List.mem_of_mem_take hn; simp [EpRow.floats] at this ⊢; tauto)
  · intro n hn; exact hr n (by simp [EpRow.floats] at hn ⊢; tauto)

theorem cut_all {r : EpRow} (hk : r.Ok) {k : List Numeral × List Numeral} : r.cut rd k 13 = r.value rd k := by
  rw [EpRow.cut, EpRow.value, List.take_of_length_le (by rw [hk.1]; decide), List.take_of_length_le (by rw [hk.2.1]; decide)]; rfl

/-- Fewer than five columns. -/
theorem row_short {r : EpRow} (hk : r.Ok) (hr : ∀ n ∈ r.floats, parse_float_or_rational n.text = .ok (rd n)) (k : PyVal × PyVal)
    {m : Nat} (hm : m < 5) {l : Str} (hf : Fields l (r.words.take m)) : row k l = .error .valueError := by
  have e1 : (r.words.take m).take 3 = (r.ints.take m).map Numeral.text := by interval_cases m <;> rfl
  have e2 : ((r.words.take m).drop 3).take 2 = ([r.energyI].take (m - 3)).map Numeral.text := by interval_cases m <;> rfl
  rw [row, (fields_iff _ _).1 hf]
  dsimp only
  rw [e1, e2, ints_to fun n hn => hk.2.2.1 n (List.mem_of_mem_take hn), floats_to (rd := rd)]
  · interval_cases m <;> rfl
  · intro n hn; exact hr n (by have := List.mem_of_mem_take hn; simp [EpRow.floats] at this ⊢; tauto)

theorem loop_rows {k : List Numeral × List Numeral} {ls : List Str} {rows : List EpRow}
    (h : List.Forall₂ (fun l r => ∃ more, Fields l (r.words ++ more)) ls rows) (hk : ∀ r ∈ rows, r.Ok)
    (hr : ∀ r ∈ rows, ∀ n ∈ r.floats, parse_float_or_rational n.text = .ok (rd n)) :
    ∀ (rest : List Str) (fuel : Nat) (acc : List PyVal), (ls ++ rest).length < fuel →
      ∃ fuel', rest.length < fuel' ∧ loop fuel (ls ++ rest) (pairOf rd k) acc = loop fuel' rest (pairOf rd k) (acc ++ rows.map (EpRow.value rd k)) := by
  induction h with
  | nil => intro rest fuel acc hf; exact ⟨fuel, hf, by simp⟩
  | @cons l r ls rows hl h ih =>
    intro rest fuel acc hf
    cases fuel with
    | zero => cases hf
    | succ fuel =>
      obtain ⟨more, hl⟩ := hl
      have hl' : Fields l (r.words.take 13 ++ more) := by
        rw [List.take_of_length_le]
        · exact hl
        · have := hk r (by simp)
          simp [EpRow.words, EpRow.ints, EpRow.floats, this.1, this.2.1]
      obtain ⟨f', h1, h2⟩ := ih (fun r hr' => hk r (by simp [hr'])) (fun r hr' => hr r (by simp [hr'])) rest fuel
        (acc ++ [r.value rd k]) (by simp at hf ⊢; omega)
      refine ⟨f', h1, ?_⟩
      rw [List.cons_append, loop, if_neg (by rw [no_pair ((hk r (by simp)).2.2.1 r.branch (by simp [EpRow.ints])).1 hl' (.inr (by decide))]; decide),
        row_of (hk r (by simp)) (hr r (by simp)) (by decide) (by decide) (.inr rfl) hl', cut_all (hk r (by simp))]
      show loop fuel (ls ++ rest) (pairOf rd k) (acc ++ [r.value rd k]) = _
      rw [h2]
      simp

theorem loop_group {g : EpGroup} {ls : List Str} (h : g.Lines ls) (hk : g.Ok) (hr : ∀ n ∈ g.kpts.1 ++ g.kpts.2, parse_float_or_rational n.text = .ok (rd n))
    (hr' : ∀ r ∈ g.rows, ∀ n ∈ r.floats, parse_float_or_rational n.text = .ok (rd n)) (rest : List Str) (fuel : Nat) (k : PyVal × PyVal)
    (acc : List PyVal) (hf : (ls ++ rest).length < fuel) :
    ∃ fuel', rest.length < fuel' ∧ loop fuel (ls ++ rest) k acc = loop fuel' rest (pairOf rd g.kpts) (acc ++ g.rows.map (EpRow.value rd g.kpts)) := by
  obtain ⟨first, title, body, rfl, h1, h2, h3⟩ := h
  cases fuel with
  | zero => cases hf
  | succ fuel =>
    obtain ⟨f', g1, g2⟩ := loop_rows (k := g.kpts) h3 hk.2.2 hr' rest fuel acc (by simp at hf ⊢; omega)
    refine ⟨f', g1, ?_⟩
    have e : kptLine first = .ok (pairOf rd g.kpts) := by
      rw [kptLine, numbersOf_of h2 (fun n hn => (hk.2.1 n hn).1) hr]
      show Except.ok _ = _
      rw [List.map_append, List.take_left' (by rw [List.length_map, hk.1]), List.drop_left' (by rw [List.length_map, hk.1])]; rfl
    rw [List.cons_append, List.cons_append, loop, if_pos h1, e]
    exact g2

theorem loop_groups {gs : List EpGroup} {body : List (List Str)} (h : List.Forall₂ EpGroup.Lines body gs) (hk : ∀ g ∈ gs, g.Ok)
    (hr : ∀ g ∈ gs, ∀ n ∈ g.kpts.1 ++ g.kpts.2, parse_float_or_rational n.text = .ok (rd n))
    (hr' : ∀ g ∈ gs, ∀ r ∈ g.rows, ∀ n ∈ r.floats, parse_float_or_rational n.text = .ok (rd n)) :
    ∀ (rest : List Str) (fuel : Nat) (k : PyVal × PyVal) (acc : List PyVal), (body.flatten ++ rest).length < fuel →
    ∃ fuel', rest.length < fuel' ∧ loop fuel (body.flatten ++ rest) k acc =
      loop fuel' rest ((gs.getLast?.map fun g => pairOf rd g.kpts).getD k) (acc ++ gs.flatMap fun g => g.rows.map (EpRow.value rd g.kpts)) := by
  induction h with
  | nil => intro rest fuel k acc hf; exact ⟨fuel, hf, by simp⟩
  | @cons ls g body gs hl h ih =>
    intro rest fuel k acc hf
    rw [List.flatten_cons, List.append_assoc] at hf ⊢
    obtain ⟨f1, a1, a2⟩ := loop_group hl (hk g (by simp)) (hr g (by simp)) (hr' g (by simp)) _ fuel k acc hf
    obtain ⟨f2, b1, b2⟩ := ih (fun g hg => hk g (by simp [hg])) (fun g hg => hr g (by simp [hg])) (fun g hg => hr' g (by simp [hg])) rest f1
      (pairOf rd g.kpts) (acc ++ g.rows.map (EpRow.value rd g.kpts)) a1
    refine ⟨f2, b1, ?_⟩
    rw [a2, b2, List.flatMap_cons, List.append_assoc]
    cases gs with
    | nil => rfl
    | cons g' gs => rw [List.getLast?_cons_cons, List.getLast?_eq_some_getLast (List.cons_ne_nil _ _)]; rfl

theorem lastWord_of {l : Str} {n : Numeral} (h : EpFile.Ends l n) : lastWord l = .ok n.text := by
  obtain ⟨w, ws, h⟩ := h
  rw [lastWord, (fields_iff _ _).1 h, List.reverse_append]
  cases hw : (w :: ws).reverse with
  | nil => simp at hw
  | cons a t => rfl

theorem nextInt_of {l : Str} {n : Numeral} (h : EpFile.Ends l n) (hn : n.Valid ∧ n.IsInt) (ls : List Str) : nextInt (l :: ls) = .ok (.int (intOf n), ls) := by
  rw [nextInt]
  show (lastWord l >>= _) = _
  rw [lastWord_of h]
  show (pyInt n.text >>= _) = _
  rw [(pyInt_isInt n hn.1 hn.2).1]; rfl

theorem nextFloat_of {l : Str} {n : Numeral} (h : EpFile.Ends l n) (hn : pyFloat n.text = .ok (fl n)) (ls : List Str) :
    nextFloat (l :: ls) = .ok (.float (fl n), ls) := by
  rw [nextFloat]
  show (lastWord l >>= _) = _
  rw [lastWord_of h]
  show (pyFloat n.text >>= _) = _
  rw [hn]; rfl

/-- The file up to some line. -/
theorem file_upto {f : EpFile} {lines : List Str} (hl : f.Lines lines) (hk : f.Ok)
    (hr : ∀ g ∈ f.groups, ∀ n ∈ g.kpts.1 ++ g.kpts.2, parse_float_or_rational n.text = .ok (rd n))
    (hr' : ∀ g ∈ f.groups, ∀ r ∈ g.rows, ∀ n ∈ r.floats, parse_float_or_rational n.text = .ok (rd n))
    (hf : ∀ n ∈ [f.volume, f.fermi], pyFloat n.text = .ok (fl n)) (rest : List Str) :
    ∃ fuel, rest.length < fuel ∧ parse_epme_file (lines ++ rest) =
      (loop fuel rest ((f.groups.getLast?.map fun g => pairOf rd g.kpts).getD (.none, .none)) (f.data rd) >>= fun d => .ok (f.report fl d)) := by
  obtain ⟨title, v, units, vol, fe, nb, nph, body, rfl, h1, h2, h3, h4, h5, h6⟩ := hl
  obtain ⟨f', a1, a2⟩ := loop_groups h6 hk.2.2 hr hr' rest ((body.flatten ++ rest).length + 1) (.none, .none) [] (Nat.lt_succ_self _)
  refine ⟨f', a1, ?_⟩
  have e : header (title :: v :: units :: vol :: fe :: nb :: nph :: (body.flatten ++ rest)) =
      .ok ([(.str (py"version"), .int (intOf f.version)), (.str (py"volume"), .float (fl f.volume)),
        (.str (py"fermi_energy"), .float (fl f.fermi)), (.str (py"n_bands"), .int (intOf f.bands)),
        (.str (py"n_branches"), .int (intOf f.branches))], body.flatten ++ rest) := by
    rw [header]
    show (nextInt _ >>= _) = _
    rw [nextInt_of h1 (hk.1 _ (by simp))]
    show (nextFloat _ >>= _) = _
    rw [nextFloat_of h2 (hf _ (by simp))]
    show (nextFloat _ >>= _) = _
    rw [nextFloat_of h3 (hf _ (by simp))]
    show (nextInt _ >>= _) = _
    rw [nextInt_of h4 (hk.1 _ (by simp))]
    show (nextInt _ >>= _) = _
    rw [nextInt_of h5 (hk.1 _ (by simp))]
    rfl
  rw [parse_epme_file]
  simp only [List.cons_append]
  rw [e]
  show (loop _ _ _ _ >>= _) = _
  rw [a2]
  rfl

end Verif.Epme
