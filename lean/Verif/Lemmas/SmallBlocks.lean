import Verif.Lemmas.ElasticProps
import Verif.Spec.SmallBlocks
/- Small tables. -/
namespace Verif.Castep.SmallTab
open Verif Re NumRe AtomRe Spec Castep

/-! ### Excitation energies -/

abbrev tnames : List (Str × Nat) := [(py"energy", 1), (py"error", 2), (py"type", 3)]
abbrev TD : Re := .seq (star sp) (.seq (.set (ch 43)) (.seq (star sp) (.seq I (.seq (LF 1) (.seq (LF 2) (.seq (star sp) (.seq (.group 3 (plus wd)) (.seq (star sp) (litRe (py"+TDDFT"))))))))))
theorem TD_eq : Res.TDDFT_RE = ⟨TD, tnames, 3⟩ := by decide +kernel

/-- A word without blanks that contains a digit cannot be the first if the first has none. -/
theorem first_word {s u w rest : Str} (h : NoNumberFirst s) (e : s = u ++ (w ++ rest)) (hu : Blank u) (hw : ∀ c ∈ w, isSpace c = false)
    {c : Nat} (hc : c ∈ w) (hd : 48 ≤ c ∧ c ≤ 57) : False := by
  subst e
  rcases h with h | ⟨x, ws, hf, hx⟩
  · have := h c (by simp [hc])
    rw [hw c hc] at this
    cases this
  · obtain ⟨g, s, e, hg, hne, hws, hs⟩ := fields_next hf
    have d1 : (g ++ (x ++ s)).dropWhile isSpace = x ++ s := by
      rw [List.dropWhile_append_of_pos (fun c hc => hg c hc)]
      cases x with
      | nil => exact absurd rfl hne
      | cons a w => rw [List.cons_append, List.dropWhile_cons_of_neg (by simp [hws a (by simp)])]
    have d2 : (u ++ (w ++ rest)).dropWhile isSpace = w ++ rest := by
      rw [List.dropWhile_append_of_pos (fun c hc => hu c hc)]
      cases w with
      | nil => cases hc
      | cons a w => rw [List.cons_append, List.dropWhile_cons_of_neg (by simp [hw a (by simp)])]
    rw [← e, d2] at d1
    rcases List.append_eq_append_iff.1 d1 with ⟨a, e2, e3⟩ | ⟨a, e2, e3⟩
    · exact hx c (by rw [e2]; simp [hc]) hd
    · cases a with
      | nil => exact hx c (by rw [List.append_nil] at e2; rw [← e2]; exact hc) hd
      | cons y a =>
        have h1 := hs.1 y (by rw [e3]; rfl)
        rw [hw y (by rw [e2]; simp)] at h1
        cases h1

set_option maxRecDepth 4000 in
theorem td_miss {l : Str} (h : ExcRow.Other l) : Res.TDDFT_RE.match_ l = Option.none := by
  cases hm : Res.TDDFT_RE.match_ l with
  | none => rfl
  | some m =>
    exfalso
    obtain ⟨b, e, hl⟩ := match_found hm
    rw [TD_eq] at hl
    obtain ⟨u1, v1, e1, h1, u2, v2, rfl, h2, u3, v3, rfl, h3, u4, v4, rfl, h4, -⟩ := hl
    obtain ⟨n, hn, -, -, rfl⟩ := lang_I (show Lang I u4 from h4)
    obtain ⟨c, hc, hd⟩ := text_digit n hn
    have hd := (isDigit_iff c).1 hd
    rcases h with h | ⟨g, s, rfl, hg, h⟩
    · exact h c (by rw [e, e1]; simp [hc]) hd
    · have b1 : Blank u1 := fun y hy => by have := ((lang_rep_set _ _ _ _ _).1 h1).1 y hy; rwa [has_sp] at this
      have b3 : Blank u3 := fun y hy => by have := ((lang_rep_set _ _ _ _ _).1 h3).1 y hy; rwa [has_sp] at this
      obtain ⟨d, hd2, rfl⟩ := h2
      obtain rfl : d = 43 := by rw [has_ch] at hd2; simpa using hd2
      rw [e1] at e
      have d1 : (g ++ 43 :: s).dropWhile isSpace = 43 :: s := by
        rw [List.dropWhile_append_of_pos (fun c hc => hg c hc), List.dropWhile_cons_of_neg (by decide)]
      have d2 : (u1 ++ ([43] ++ (u3 ++ (n.text ++ v4))) ++ b).dropWhile isSpace = 43 :: (u3 ++ (n.text ++ (v4 ++ b))) := by
        rw [List.append_assoc, List.dropWhile_append_of_pos (fun c hc => b1 c hc)]
        simp only [List.append_assoc, List.cons_append, List.nil_append]
        rw [List.dropWhile_cons_of_neg (by decide)]
      rw [e, d2] at d1
      injection d1 with _ d1
      exact first_word h d1.symm b3 (text_nospace n hn) hc hd

theorem lit_eps {s : Str} (hs : s ≠ []) (st : St) (k : St → Option St) : run (litRe s) st k = run (litThen s .eps) st k := by
  rw [← Scf.litRe_then hs, run_seq]
  simp only [run_eps]

theorem td_match {l : Str} {r : ExcRow} (h : r.Line l) (hok : r.Ok) :
    ∃ m, Res.TDDFT_RE.match_ l = some m ∧ m.caps = [(3, r.typ), (2, r.error.text), (1, r.energy.text)] ∧ m.names = tnames := by
  obtain ⟨more, hf⟩ := h
  obtain ⟨hs, he, hr, ht, htw⟩ := hok
  rw [TD_eq]
  refine Gets.match_ (p := ⟨TD, tnames, 3⟩) (C := (· = _)) ?_
  obtain ⟨g, s, rfl, h1, h2, h3, h4⟩ := fields_next hf
  refine Gets.stars (fun c hc => by rw [has_sp]; exact h1 c hc) (by intro c hc; cases hc; rfl) ?_
  refine Gets.lit [43] _ ?_
  refine Gets.startInt h4.2 hs.1 hs.2 (by simp) fun p2 s2 a2 => ?_
  obtain ⟨g1, s1, rfl, b1, n1, -, -, a3⟩ := a2.next
  refine Gets.lfAt b1 n1 he.1 a3.endsNumber ?_
  obtain ⟨g2, s3, rfl, b2, n2, -, -, a4⟩ := a3.next
  refine Gets.lfAt b2 n2 hr.1 a4.endsNumber ?_
  refine Gets.gap a4 fun p5 s5 _ a5 => ?_
  refine Gets.run (fun c hc => by rw [has_wd]; exact htw c hc) ht (by intro c hc; rw [has_wd]; exact isSpace_not_word (a5.1 c hc)) ?_
  have e : ∀ st (k : St → Option St), run (.seq (star sp) (litRe (py"+TDDFT"))) st k = run (.seq (star sp) (litThen (py"+TDDFT") .eps)) st k := by
    intro st k
    simp only [run_seq, lit_eps (s := py"+TDDFT") (by simp)]
  refine Gets.congr e ?_
  refine Gets.gap a5 fun p6 s6 _ a6 => ?_
  exact Gets.lit _ _ (Gets.eps rfl)

theorem td_line {fl : Numeral → F64} (hfl : ∀ n : Numeral, n.Valid → n.InRange → pyFloat n.text = .ok (fl n)) {l : Str} {r : ExcRow} (h : r.Line l) (hok : r.Ok) :
    onMatch Res.TDDFT_RE (fun m => do
      let energy ← grpFloat m (py"energy")
      let error ← grpFloat m (py"error")
      return PyVal.dict [(.str (py"energy"), energy), (.str (py"error"), error), (.str (py"type"), optStr (m.named (py"type")))]) l = .ok (some (r.info fl)) := by
  obtain ⟨m, h1, h2, h3⟩ := td_match h hok
  obtain ⟨-, he, hr, -⟩ := hok
  have g1 : grpFloat m (py"energy") = .ok (.float (fl r.energy)) := by
    rw [grpFloat, grp, named_eq h2 h3]; exact LineTab.floatV_ok (hfl _ he.1 he.2)
  have g2 : grpFloat m (py"error") = .ok (.float (fl r.error)) := by
    rw [grpFloat, grp, named_eq h2 h3]; exact LineTab.floatV_ok (hfl _ hr.1 hr.2)
  have g3 : m.named (py"type") = some r.typ := by rw [named_eq h2 h3]; rfl
  unfold onMatch
  rw [h1]
  simp only [g1, g2, g3, Delta.ok_bind]
  rfl

theorem td_skip {f : Match → PyM PyVal} {l : Str} (h : ExcRow.Other l) : onMatch Res.TDDFT_RE f l = .ok none := by
  unfold onMatch
  rw [td_miss h]

/-! ### Electron localisation -/

abbrev EL : Re := .seq (plus sp) (litThen (py"ELF") (.seq (plus sp) (.seq (plus dig) (.seq (plus sp) (.group 1 F)))))
theorem EL_eq : ELF_RE = ⟨EL, [], 1⟩ := by decide +kernel

theorem elf_match {l : Str} {r : Str × Numeral} (h : ElfLine l r) (hok : ElfOk r) : ∃ m, ELF_RE.match_ l = some m ∧ m.caps = [(1, r.2.text)] := by
  obtain ⟨hi, more, hf⟩ := h
  obtain ⟨hd, hn, hp, he⟩ := hok
  rw [EL_eq]
  have : ∃ m, (⟨EL, [], 1⟩ : Pat).match_ l = some m ∧ m.caps = [(1, r.2.text)] ∧ m.names = [] := by
    refine Gets.match_ (p := ⟨EL, [], 1⟩) (C := (· = _)) ?_
    have hl : _root_.Verif.After l (py"ELF" :: r.1 :: r.2.text :: more) := by
      obtain ⟨c, s, rfl, hc⟩ := hi
      exact ⟨fun d hd => by cases hd; exact hc, hf⟩
    refine Gets.gap1 hl fun p1 s1 _ a1 => ?_
    refine Gets.lit _ _ ?_
    refine Gets.gap1 a1 fun p2 s2 _ a2 => ?_
    refine Tddft.digitsAt hd.1 hd.2 a2.endsNumber ?_
    refine Gets.gap1 (w := r.2.text) a2 fun p3 s3 _ a3 => ?_
    exact Gets.point hn.1 hp a3.1 (by rw [mantissa_none he])
  obtain ⟨m, h1, h2, -⟩ := this
  exact ⟨m, h1, h2⟩

set_option maxRecDepth 4000 in
theorem elf_miss {l : Str} (h : NoDigit l) : ELF_RE.match_ l = Option.none := by
  cases hm : ELF_RE.match_ l with
  | none => rfl
  | some m =>
    exfalso
    obtain ⟨b, e, hl⟩ := match_found hm
    rw [EL_eq] at hl
    obtain ⟨u1, v1, e1, -, u2, v2, rfl, -, u3, v3, rfl, -, u4, v4, rfl, -, u5, v5, rfl, -, u6, v6, rfl, h6, -⟩ := hl
    obtain ⟨h6a, h6b⟩ := (lang_rep_set _ _ _ _ _).1 h6
    cases u6 with
    | nil => simp at h6b
    | cons d u6 =>
      have := h6a d (by simp)
      exact h d (by rw [e, e1]; simp) ((isDigit_iff d).1 (by simpa [CSet.has, CItem.has] using this))

theorem elf_line {fl : Numeral → F64} (hfl : ∀ n : Numeral, n.Valid → n.InRange → pyFloat n.text = .ok (fl n)) {l : Str} {r : Str × Numeral} (h : ElfLine l r) (hok : ElfOk r) :
    onMatch ELF_RE (fun m => floatV ((m.group 1).getD [])) l = .ok (some (.float (fl r.2))) := by
  obtain ⟨m, h1, h2⟩ := elf_match h hok
  have g : m.group 1 = some r.2.text := by
    rw [Match.group, h2]; rfl
  unfold onMatch
  rw [h1]
  simp only [g, Option.getD_some, LineTab.floatV_ok (hfl _ hok.2.1.1 hok.2.1.2)]
  rfl

theorem elf_skip {f : Match → PyM PyVal} {l : Str} (h : NoDigit l) : onMatch ELF_RE f l = .ok none := by
  unfold onMatch
  rw [elf_miss h]

/-! ### Symmetry analyses -/

theorem title_of {l : Str} {words : List Str} (h : SymTitle l words) : ∃ t, at_ (Str.splitC (c!":") l) 1 = .ok t ∧ normalise_string t = Str.join (py" ") words := by
  obtain ⟨a, t, h, ha, ht, hf⟩ := h
  refine ⟨t, ?_, by rw [normalise_string, split_strip, (fields_iff t _).1 hf]⟩
  rcases h with rfl | ⟨b, rfl⟩
  · rw [splitC_append _ _ _ ha, splitC_of_notMem _ _ ht]; rfl
  · rw [splitC_append _ _ _ ha, splitC_append _ _ _ ht]; rfl

/-- A row of the matrix. -/
def rowOf (l : Str) : PyM (Option PyVal) :=
  match Res.get_numbers l with
  | [] => .ok none
  | n :: ns => do
    let v ← parse_int_or_float_seq (n :: ns)
    return some v

theorem isdigit_iff {n : Numeral} (hn : n.Valid) : Str.isdigit n.text = true ↔ n.IsInt ∧ n.sign = none := by
  obtain ⟨sg, ip, fr, ex⟩ := n
  obtain ⟨h1, h2, h3, h4⟩ := hn
  constructor
  · intro h
    rw [Str.isdigit, Bool.and_eq_true] at h
    have h := List.all_eq_true.1 h.2
    refine ⟨⟨?_, ?_⟩, ?_⟩
    · cases fr with
      | none => rfl
      | some f =>
        have := h 46 (by simp [Numeral.text, Numeral.fracText])
        exact absurd this (by decide)
    · cases ex with
      | none => rfl
      | some x =>
        obtain ⟨u, s', ds⟩ := x
        cases u
        · have := h 101 (by simp [Numeral.text, Numeral.expText])
          exact absurd this (by decide)
        · have := h 69 (by simp [Numeral.text, Numeral.expText])
          exact absurd this (by decide)
    · cases sg with
      | none => rfl
      | some b =>
        cases b
        · have := h 43 (by simp [Numeral.text, Numeral.signText])
          exact absurd this (by decide)
        · have := h 45 (by simp [Numeral.text, Numeral.signText])
          exact absurd this (by decide)
  · rintro ⟨⟨rfl, rfl⟩, rfl⟩
    have e : (⟨none, ip, none, none⟩ : Numeral).text = ip := by simp [Numeral.text, Numeral.signText, Numeral.fracText, Numeral.expText]
    have hne : ip ≠ [] := by simpa using h3
    rw [e, Str.isdigit, Bool.and_eq_true, List.all_eq_true]
    exact ⟨by cases ip <;> simp_all, fun c hc => (isDigit_iff c).2 (h1 c hc)⟩

theorem rowOf_none {l : Str} (h : HasNumbers l []) : rowOf l = .ok none := by
  rw [rowOf, get_numbers_has h (by simp)]; rfl

theorem rowOf_some {rd : Numeral → F64} (hrd : ∀ n : Numeral, n.Valid → n.InRange → parse_float_or_rational n.text = .ok (rd n)) {l : Str} {ns : List Numeral}
    (h : ns ≠ [] ∧ HasNumbers l ns) (hok : ∀ n ∈ ns, n.Valid ∧ n.InRange) : rowOf l = .ok (some (symRow rd ns)) := by
  obtain ⟨hne, h⟩ := h
  have hp : parse_int_or_float_seq (ns.map Numeral.text) = .ok (symRow rd ns) := by
    rw [parse_int_or_float_seq, symRow]
    have hall : (ns.map Numeral.text).all Str.isdigit = true ↔ ∀ n ∈ ns, n.IsInt ∧ n.sign = none := by
      rw [List.all_map, List.all_eq_true]
      exact forall₂_congr fun n hn => isdigit_iff (hok n hn).1
    have hl : ∀ typ, to_type typ (.list ((ns.map Numeral.text).map .str)) = to_type typ (strList (ns.map Numeral.text)) := by
      intro typ; simp [to_type, strList]
    by_cases hi : ∀ n ∈ ns, n.IsInt ∧ n.sign = none
    · rw [if_pos (hall.2 hi), if_pos hi, hl]
      exact Internal.ints_ok fun n hn => ⟨(hok n hn).1, (hi n hn).1⟩
    · rw [if_neg (fun h => hi (hall.1 h)), if_neg hi, hl]
      exact to_type_strList .float ns Numeral.text _ fun n hn => typeParser_float (hrd n (hok n hn).1 (hok n hn).2)
  rw [rowOf, get_numbers_has h fun n hn => (hok n hn).1]
  cases ns with
  | nil => exact absurd rfl hne
  | cons n ns =>
    rw [List.map_cons] at hp ⊢
    simp only [hp]
    rfl

end Verif.Castep.SmallTab
