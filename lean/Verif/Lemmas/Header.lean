import Verif.Lemmas.Words
import Verif.Lemmas.Tables
import Verif.Lemmas.IntFloat
import Verif.Lemmas.MdFrame
import Verif.Lemmas.Comments
import Verif.Props.Numbers
/-
The standard header of the smaller output files.
-/
namespace Verif
open Re Spec NumRe AtomRe

/-! ### Counts -/

theorem strip_pad (line : Str) : ∃ g g', line = g ++ (Str.strip line ++ g') ∧ Blank g ∧ Blank g' := by
  obtain ⟨⟨g', e, hg'⟩, -⟩ := rstripped_rstrip (Str.lstrip line)
  refine ⟨line.takeWhile isSpace, g', ?_, ?_, hg'⟩
  · rw [Str.strip, ← e, Str.lstrip, List.takeWhile_append_dropWhile]
  · intro c hc
    exact List.all_eq_true.1 (List.all_takeWhile (l := line) (p := isSpace)) c hc

/-- Text that starts and ends without whitespace at the start of a line. -/
theorem startsWith_strip (w line : Str) (a b : Nat) (v : Str) (hw : w = a :: v) (ha : isSpace a = false)
    (hb : w.getLast? = some b) (hb' : isSpace b = false) :
    Str.startsWith (Str.strip line) w = true ↔ ∃ g r, line = g ++ w ++ r ∧ Blank g := by
  rw [Str.startsWith, List.isPrefixOf_iff_prefix]
  constructor
  · rintro ⟨r, hr⟩
    obtain ⟨g, g', e, hg, -⟩ := strip_pad line
    exact ⟨g, r ++ g', by rw [e, ← hr]; simp, hg⟩
  · rintro ⟨g, r, rfl, hg⟩
    have h1 : Str.lstrip (g ++ w ++ r) = w ++ r := by
      rw [Str.lstrip, List.append_assoc]
      have : ∀ g : Str, Blank g → (g ++ (w ++ r)).dropWhile isSpace = w ++ r := by
        intro g
        induction g with
        | nil => intro _; rw [hw]; simp [ha]
        | cons c g ih =>
          intro h
          rw [List.cons_append, List.dropWhile_cons, if_pos (h c (by simp))]
          exact ih fun d hd => h d (by simp [hd])
      exact this g hg
    rw [Str.strip, h1]
    by_cases hr : Blank r
    · have : Str.rstrip (w ++ r) = w := by
        rw [rstrip_iff]
        refine ⟨⟨r, rfl, hr⟩, ?_⟩
        intro c hc
        rw [hb] at hc; cases hc; exact hb'
      rw [this]
    · obtain ⟨⟨g', e, hg'⟩, hl⟩ := rstripped_rstrip r
      have hne : Str.rstrip r ≠ [] := fun h => hr ((rstrip_nil_iff r).1 h)
      have : Str.rstrip (w ++ r) = w ++ Str.rstrip r := by
        rw [rstrip_iff]
        refine ⟨⟨g', by rw [List.append_assoc, ← e], hg'⟩, ?_⟩
        intro c hc
        apply hl
        rw [List.getLast?_append] at hc
        cases h : (Str.rstrip r).getLast? with
        | none => rw [List.getLast?_eq_none_iff] at h; exact absurd h hne
        | some d => rw [h] at hc; simpa using hc
      rw [this]; exact List.prefix_append _ _

theorem isCount_iff (line : Str) : Str.startsWith (Str.strip line) (py"Number of") = true ↔ IsCount line :=
  startsWith_strip (py"Number of") line 78 102 (py"umber of") (by decide) (by decide) (by decide) (by decide)

theorem unpack_words {α : Type} (a b : α) (k : List α) (v : α) : unpack2StarLast (a :: b :: (k ++ [v])) = .ok (k, v) := by
  have : ∀ (l : List α) (hl : l ≠ []), l = k ++ [v] → unpack2StarLast (a :: b :: l) = .ok (k, v) := by
    intro l hl e
    cases l with
    | nil => exact absurd rfl hl
    | cons c l =>
      rw [unpack2StarLast]
      simp only [e]
      simp
  exact this _ (by simp) rfl

theorem countLine_of {line : Str} {key : List Str} {n : Numeral}
    (h : Fields line (py"Number" :: py"of" :: (key ++ [n.text]))) (hn : n.Valid) (hi : n.IsInt)
    (hk : Numeral.nat n.ip < 2 ^ 53) : Header.countLine line = .ok (Str.join (py" ") key, intOf n) := by
  rw [Header.countLine, fields_split h, unpack_words]
  show (do let n ← intOfFloat n.text; pure _ : PyM _) = _
  rw [intOfFloat_text n hn hi hk]; rfl

/-! ### Rows of numbers -/

theorem wordsTo_float {rd : Numeral → F64} {line : Str} {ns : List Numeral} (h : Fields line (ns.map Numeral.text))
    (hr : ∀ n ∈ ns, parse_float_or_rational n.text = .ok (rd n)) :
    wordsTo .float line = .ok (.tuple (ns.map fun n => .float (rd n))) := by
  rw [wordsTo, fields_split h]
  exact to_type_strList .float ns Numeral.text _ fun n hn => typeParser_float (hr n hn)

theorem numbersOf_of {rd : Numeral → F64} {line : Str} {ns : List Numeral} (h : HasNumbers line ns)
    (hv : ∀ n ∈ ns, n.Valid) (hr : ∀ n ∈ ns, parse_float_or_rational n.text = .ok (rd n)) :
    numbersOf line = .ok (.tuple (ns.map fun n => .float (rd n))) := by
  have hg : Res.get_numbers line = ns.map Numeral.text := by
    rcases h with ⟨rfl, hd⟩ | ⟨lead, l, -, rfl, rfl, h1, h2, h3⟩
    · rw [MdFrame.get_numbers_none]; rfl
      intro c hc
      cases hh : isDigit c with
      | false => rfl
      | true => exact absurd ((isDigit_iff c).1 hh) (hd c hc)
    · rw [Props.C30_complete lead l h1 (fun p hp => hv _ (List.mem_map_of_mem hp)) h2 (fun p hp => h3 p hp), List.map_map]; rfl
  rw [numbersOf, hg]
  exact to_type_strList .float ns Numeral.text _ fun n hn => typeParser_float (hr n hn)

/-! ### Ions -/

/-- A letter. -/
def letter (c : Nat) : Bool := decide (65 ≤ c ∧ c ≤ 90 ∨ 97 ≤ c ∧ c ≤ 122)

theorem text_noletter {n : Numeral} (hn : n.Valid) (he : n.exp = none) : ∀ c ∈ n.text, letter c = false := by
  intro c hc
  obtain ⟨v1, v2, -, -⟩ := hn
  simp only [Numeral.text, he, Numeral.expText, List.append_nil, List.mem_append] at hc
  have hd : 48 ≤ c ∧ c ≤ 57 → letter c = false := by
    intro h; simp [letter]; omega
  rcases hc with (hc | hc) | hc
  · rcases hs : n.sign with _ | _ | _ <;> rw [hs] at hc
    · cases hc
    · simp [Numeral.signText] at hc; subst hc; rfl
    · simp [Numeral.signText] at hc; subst hc; rfl
  · exact hd (v1 c hc)
  · cases hf : n.frac with
    | none => rw [hf] at hc; cases hc
    | some ds =>
      rw [hf] at hc v2
      simp only [Numeral.fracText, List.mem_cons] at hc
      rcases hc with rfl | hc
      · rfl
      · exact hd (v2 c hc)

theorem blank_noletter {g : Str} (h : Blank g) : ∀ c ∈ g, letter c = false := by
  intro c hc
  have := h c hc
  simp [isSpace] at this
  simp [letter]; omega

theorem lang_A_head {w : Str} (h : Lang A w) : ∃ c r, w = c :: r ∧ 65 ≤ c ∧ c ≤ 90 := by
  obtain ⟨u, v, rfl, h1, u2, v2, rfl, ⟨c, hc, rfl⟩, -⟩ := h
  have : u = [] := h1
  subst this
  exact ⟨c, v2, rfl, (has_upS c).1 hc⟩

/-- The parts of the line of an ion. -/
theorem ion_line {line : Str} {p : IonPos}
    (h : Fields line [p.idx.text, p.u.text, p.v.text, p.w.text, p.spec, p.mass.text]) :
    ∃ g0 g1 g2 g3 g4 g5 t, line = g0 ++ (p.idx.text ++ (g1 ++ (p.u.text ++ (g2 ++ (p.v.text ++ (g3 ++ (p.w.text ++ (g4 ++
      (p.spec ++ (g5 ++ (p.mass.text ++ t))))))))))) ∧ Blank g0 ∧ (∀ g ∈ [g1, g2, g3, g4, g5], Blank g ∧ g ≠ []) ∧ Blank t := by
  obtain ⟨g0, s0, rfl, b0, -, -, d0, h0⟩ := fields_uncons h
  obtain ⟨g1, s1, rfl, b1, n1, -, -, d1, h1⟩ := fields_gap_inv d0 h0
  obtain ⟨g2, s2, rfl, b2, n2, -, -, d2, h2⟩ := fields_gap_inv d1 h1
  obtain ⟨g3, s3, rfl, b3, n3, -, -, d3, h3⟩ := fields_gap_inv d2 h2
  obtain ⟨g4, s4, rfl, b4, n4, -, -, d4, h4⟩ := fields_gap_inv d3 h3
  obtain ⟨g5, s5, rfl, b5, n5, -, -, d5, h5⟩ := fields_gap_inv d4 h4
  refine ⟨g0, g1, g2, g3, g4, g5, s5, rfl, b0, ?_, blank_of_fields h5⟩
  intro g hg
  simp at hg
  rcases hg with rfl | rfl | rfl | rfl | rfl
  exacts [⟨b1, n1⟩, ⟨b2, n2⟩, ⟨b3, n3⟩, ⟨b4, n4⟩, ⟨b5, n5⟩]

/-- The numbers of an ion contain no letters. -/
theorem ion_numbers {p : IonPos} (hp : p.Ok) : ∀ n ∈ [p.idx, p.u, p.v, p.w, p.mass], n.Valid ∧ ∀ c ∈ n.text, letter c = false := by
  obtain ⟨hi, hi', hn, -⟩ := hp
  intro n h
  rw [List.mem_cons] at h
  rcases h with rfl | h
  · exact ⟨hi, text_noletter hi hi'.2⟩
  · exact ⟨(hn n h).1, text_noletter (hn n h).1 (hn n h).2.2⟩

theorem ion_notTitle {line : Str} {p : IonPos} (hp : p.Ok)
    (h : Fields line [p.idx.text, p.u.text, p.v.text, p.w.text, p.spec, p.mass.text]) :
    ¬ IsCount line ∧ ¬ Occurs (py"Unit cell vectors") line := by
  have hnum := ion_numbers hp
  obtain ⟨-, -, -, c, cs, hsp, hc, hc', hcs, -⟩ := hp
  obtain ⟨g0, g1, g2, g3, g4, g5, t, rfl, b0, bg, bt⟩ := ion_line h
  have hcount : ((g0 ++ (p.idx.text ++ (g1 ++ (p.u.text ++ (g2 ++ (p.v.text ++ (g3 ++ (p.w.text ++ (g4 ++
      (p.spec ++ (g5 ++ (p.mass.text ++ t)))))))))))).filter letter).length ≤ 3 := by
    have hz : ∀ l : Str, (∀ c ∈ l, letter c = false) → l.filter letter = [] := by
      intro l hl; rw [List.filter_eq_nil_iff]; intro a ha; simp [hl a ha]
    simp only [List.filter_append]
    rw [hz g0 (blank_noletter b0), hz g1 (blank_noletter (bg g1 (by simp)).1), hz g2 (blank_noletter (bg g2 (by simp)).1),
      hz g3 (blank_noletter (bg g3 (by simp)).1), hz g4 (blank_noletter (bg g4 (by simp)).1),
      hz g5 (blank_noletter (bg g5 (by simp)).1), hz t (blank_noletter bt), hz _ (hnum p.idx (by simp)).2,
      hz _ (hnum p.u (by simp)).2, hz _ (hnum p.v (by simp)).2, hz _ (hnum p.w (by simp)).2, hz _ (hnum p.mass (by simp)).2]
    simp only [List.nil_append, List.append_nil]
    refine (List.length_filter_le _ _).trans ?_
    rw [hsp, List.length_cons]; omega
  constructor
  · rintro ⟨g, r, e, -⟩
    rw [e, List.filter_append, List.filter_append, List.length_append, List.length_append] at hcount
    have : ((py"Number of").filter letter).length = 8 := by decide
    omega
  · rintro ⟨g, r, e⟩
    rw [e, List.filter_append, List.filter_append, List.length_append, List.length_append] at hcount
    have : ((py"Unit cell vectors").filter letter).length = 15 := by decide
    omega

theorem split_at_unique {α : Type} {P : α → Prop} (a b : List α) (x y : α) (u v : List α)
    (h : a ++ x :: u = b ++ y :: v) (hb : ∀ z ∈ b, ¬ P z) (hv : ∀ z ∈ v, ¬ P z) (hx : P x) : a = b ∧ x :: u = y :: v := by
  induction a generalizing b with
  | nil =>
    cases b with
    | nil => exact ⟨rfl, h⟩
    | cons z b => simp at h; exact absurd (h.1 ▸ hx) (hb z (by simp))
  | cons w a ih =>
    cases b with
    | nil =>
      simp at h
      exact absurd hx (hv x (by rw [← h.2]; simp))
    | cons z b =>
      simp at h
      obtain ⟨e1, e2⟩ := ih b (by simpa using h.2) fun z hz => hb z (by simp [hz])
      exact ⟨by rw [h.1, e1], e2⟩

theorem ion_ad3 (q : Pat) (hq : q.re = .seq (.group 1 A) (.seq (plus sp) (.seq (.group 2 (plus dig))
    (.seq (LF 3) (.seq (LF 4) (LF 5)))))) {line : Str} {p : IonPos} (hp : p.Ok)
    (h : Fields line [p.idx.text, p.u.text, p.v.text, p.w.text, p.spec, p.mass.text]) : q.search line = none := by
  cases hs : q.search line with
  | none => rfl
  | some m =>
    exfalso
    have hnum := ion_numbers hp
    obtain ⟨-, -, -, c, cs, hsp, hc, hc', hcs, hlow⟩ := hp
    obtain ⟨g0, g1, g2, g3, g4, g5, t, rfl, b0, bg, bt⟩ := ion_line h
    obtain ⟨a, b, e, hl⟩ := search_found hs
    rw [hq] at hl
    obtain ⟨u, v, e1, hu, u2, v2, rfl, -, u3, v3, rfl, -, hv⟩ := hl
    obtain ⟨c', r', rfl, hup⟩ := lang_A_head hu
    have upper : ∀ l : Str, (∀ c ∈ l, letter c = false) → ∀ z ∈ l, ¬ (65 ≤ z ∧ z ≤ 90) := by
      intro l hl z hz hh
      have := hl z hz
      simp [letter] at this; omega
    have e' : a ++ c' :: (r' ++ (u2 ++ (u3 ++ v3)) ++ b) = (g0 ++ (p.idx.text ++ (g1 ++ (p.u.text ++ (g2 ++ (p.v.text ++
        (g3 ++ (p.w.text ++ g4)))))))) ++ c :: (cs ++ (g5 ++ (p.mass.text ++ t))) := by
      have := e.symm
      rw [e1, hsp] at this
      simpa using this
    obtain ⟨-, e2⟩ := split_at_unique (P := fun z => 65 ≤ z ∧ z ≤ 90) _ _ _ _ _ _ e' (by
      intro z hz
      simp only [List.mem_append] at hz
      rcases hz with hz | hz | hz | hz | hz | hz | hz | hz | hz
      · exact upper _ (blank_noletter b0) z hz
      · exact upper _ (hnum p.idx (by simp)).2 z hz
      · exact upper _ (blank_noletter (bg g1 (by simp)).1) z hz
      · exact upper _ (hnum p.u (by simp)).2 z hz
      · exact upper _ (blank_noletter (bg g2 (by simp)).1) z hz
      · exact upper _ (hnum p.v (by simp)).2 z hz
      · exact upper _ (blank_noletter (bg g3 (by simp)).1) z hz
      · exact upper _ (hnum p.w (by simp)).2 z hz
      · exact upper _ (blank_noletter (bg g4 (by simp)).1) z hz) (by
      intro z hz
      simp only [List.mem_append] at hz
      rcases hz with hz | hz | hz | hz
      · have := hlow z hz; omega
      · exact upper _ (blank_noletter (bg g5 (by simp)).1) z hz
      · exact upper _ (hnum p.mass (by simp)).2 z hz
      · exact upper _ (blank_noletter bt) z hz) hup
    obtain ⟨k₁, n₁, k₂, n₂, k₃, n₃, rfl, a1, b1, a2, b2, a3, b3, c1, c2, c3⟩ := lang_LF3 3 4 5 hv
    have hplain : Plain (c :: (cs ++ (g5 ++ (p.mass.text ++ t)))) := by
      refine ⟨[p.spec, p.mass.text], ?_, lt_of_le_of_lt (List.length_filter_le _ _) (by simp)⟩
      have hsn : ∀ d ∈ p.spec, isSpace d = false := by
        intro d hd
        rw [hsp, List.mem_cons] at hd
        rcases hd with rfl | hd
        · simp [isSpace]; omega
        · have := hlow d hd; simp [isSpace]; omega
      have f1 := fields_word (w := p.spec) (by rw [hsp]; simp) hsn
      have vm := (hnum p.mass (by simp)).1
      have f2 : Fields (p.mass.text ++ t) [p.mass.text] := by
        have : p.mass.text ++ t = [] ++ p.mass.text ++ t := by simp
        rw [this]
        refine .cons (by simp) (text_ne_nil _ vm) (fun d hd => by simp [text_nospace _ vm d hd]) ?_ (fields_blank bt)
        intro d hd
        simp [bt d (List.mem_of_mem_head? hd)]
      have := fields_gap f1 (bg g5 (by simp)).1 (bg g5 (by simp)).2 f2
      rw [hsp] at this
      rw [hsp]
      simpa using this
    refine plain_noVec hplain ⟨c' :: (r' ++ (u2 ++ u3)), k₁, n₁, k₂, n₂, k₃, n₃, b, ?_, a1, b1, a2, b2, a3, b3, c1, c2, c3⟩
    rw [← e2]; simp

/-- The groups of the line of an ion. -/
theorem ion_match (q : Pat) (hq : q = ⟨.seq (star sp) (.seq (.group 1 I) (.seq (LF 2) (.seq (LF 3) (.seq (LF 4)
    (.seq (star sp) (.seq (.group 5 SPC) (LF 6))))))), [(py"index", 1), (py"u", 2), (py"v", 3), (py"w", 4), (py"spec", 5),
    (py"mass", 6)], 6⟩) {line : Str} {p : IonPos} (hp : p.Ok)
    (h : Fields line [p.idx.text, p.u.text, p.v.text, p.w.text, p.spec, p.mass.text]) :
    ∃ m, q.match_ line = some m ∧ groupVals m = [(.str (py"index"), .str p.idx.text), (.str (py"u"), .str p.u.text),
      (.str (py"v"), .str p.v.text), (.str (py"w"), .str p.w.text), (.str (py"spec"), .str p.spec),
      (.str (py"mass"), .str p.mass.text)] := by
  have hnum := ion_numbers hp
  obtain ⟨vi, ii, -, c, cs, hsp, hc, hc', hcs, hlow⟩ := hp
  obtain ⟨g0, g1, g2, g3, g4, g5, t, rfl, b0, bg, bt⟩ := ion_line h
  have stopsp : ∀ (s r : Str), s ≠ [] → (∀ d ∈ s, isSpace d = false) → Stops sp (s ++ r) := by
    intro s r hne hs d hd
    cases s with
    | nil => exact absurd rfl hne
    | cons a s => simp at hd; subst hd; rw [has_sp]; exact hs a (by simp)
  have ends : ∀ g r, Blank g ∧ g ≠ [] → EndsNumber (g ++ r) := by
    intro g r hg
    cases g with
    | nil => exact absurd rfl hg.2
    | cons d g => exact .space (hg.1 d (by simp))
  have hsn : ∀ d ∈ p.spec, isSpace d = false := by
    intro d hd
    rw [hsp, List.mem_cons] at hd
    rcases hd with rfl | hd
    · simp [isSpace]; omega
    · have := hlow d hd; simp [isSpace]; omega
  have et : EndsNumber t := by
    cases t with
    | nil => exact .nil
    | cons d t => exact .space (bt d (by simp))
  refine ⟨⟨[], g0 ++ (p.idx.text ++ (g1 ++ (p.u.text ++ (g2 ++ (p.v.text ++ (g3 ++ (p.w.text ++ (g4 ++
      (p.spec ++ (g5 ++ p.mass.text)))))))))), t, [(6, p.mass.text), (5, p.spec), (4, p.w.text), (3, p.v.text),
      (2, p.u.text), (1, p.idx.text)], q.names, q.ngroups⟩, ?_, ?_⟩
  · have e : g0 ++ (p.idx.text ++ (g1 ++ (p.u.text ++ (g2 ++ (p.v.text ++ (g3 ++ (p.w.text ++ (g4 ++
      (p.spec ++ (g5 ++ (p.mass.text ++ t))))))))))) = (g0 ++ (p.idx.text ++ (g1 ++ (p.u.text ++ (g2 ++ (p.v.text ++ (g3 ++ (p.w.text ++ (g4 ++
      (p.spec ++ (g5 ++ p.mass.text))))))))))) ++ t := by simp
    rw [e]
    apply Pat.matchAt_of
    rw [← e, hq, run_seq]
    apply run_star_all sp g0 _ _ _ _ _ _ (fun d hd => by rw [has_sp]; exact b0 d hd)
      (stopsp _ _ (text_ne_nil _ vi) (text_nospace _ vi)) (by simp)
    rw [run_seq, run_group]
    have hit : p.idx.text = Numeral.signText p.idx.sign ++ p.idx.ip := by
      rw [Numeral.text, ii.1, ii.2]; simp [Numeral.fracText, Numeral.expText]
    have hip : p.idx.ip ≠ [] := by
      have := vi.2.2.1; rw [ii.1] at this; simpa using this
    have hg1 := bg g1 (by simp)
    rw [hit]
    apply run_I p.idx.sign p.idx.ip _ _ _ _ _ vi.1 hip
    · intro _ hh
      cases g0 using List.reverseRecOn with
      | nil => simp at hh
      | append_singleton g0 d =>
        simp at hh
        have := b0 d (by simp)
        rw [hh] at this; cases this
    · intro d hd
      cases g1 with
      | nil => exact absurd rfl hg1.2
      | cons d' g1 =>
        simp at hd; subst hd
        have := hg1.1 d' (by simp)
        simp [isSpace] at this
        simp [CSet.has, CItem.has, isDigit]; omega
    · cases g1 with
      | nil => exact absurd rfl hg1.2
      | cons d' g1 =>
        have := hg1.1 d' (by simp)
        intro hh; simp at hh; rw [hh] at this; cases this
    rw [upTo_append, run_seq]
    have hu := (hnum p.u (by simp)).1
    have hv := (hnum p.v (by simp)).1
    have hw := (hnum p.w (by simp)).1
    have hm := (hnum p.mass (by simp)).1
    apply run_LF 2 g1 p.u hg1.1 hg1.2 hu _ _ _ _ _ (ends _ _ (bg g2 (by simp)))
    rw [run_seq]
    apply run_LF 3 g2 p.v (bg g2 (by simp)).1 (bg g2 (by simp)).2 hv _ _ _ _ _ (ends _ _ (bg g3 (by simp)))
    rw [run_seq]
    apply run_LF 4 g3 p.w (bg g3 (by simp)).1 (bg g3 (by simp)).2 hw _ _ _ _ _ (ends _ _ (bg g4 (by simp)))
    rw [run_seq]
    apply run_star_all sp g4 _ _ _ _ _ _ (fun d hd => by rw [has_sp]; exact (bg g4 (by simp)).1 d hd)
      (stopsp _ _ (by rw [hsp]; simp) hsn) (by simp)
    rw [run_seq, run_group, run_seq, hsp, List.cons_append, run_set_cons, if_pos ((has_upS c).2 ⟨hc, hc'⟩)]
    apply run_star_all lowS cs _ _ _ _ _ _ (fun d hd => (has_lowS d).2 (hlow d hd)) ?_ (by simp; exact hcs)
    · have hup : ∀ pre caps caps', (⟨pre, c :: (cs ++ (g5 ++ (p.mass.text ++ t))), caps⟩ : St).upTo
          ⟨cs.reverse ++ c :: pre, g5 ++ (p.mass.text ++ t), caps'⟩ = c :: cs := by
        intro pre caps caps'
        have := upTo_append pre (c :: cs) (g5 ++ (p.mass.text ++ t)) caps caps'
        simpa using this
      rw [hup]
      have := run_LF (β := St) 6 g5 p.mass (bg g5 (by simp)).1 (bg g5 (by simp)).2 hm
      apply this _ _ _ _ _ et
      simp
    · intro d hd
      have hg5 := bg g5 (by simp)
      cases g5 with
      | nil => exact absurd rfl hg5.2
      | cons d' g5 =>
        simp at hd; subst hd
        have := hg5.1 d' (by simp)
        simp [isSpace] at this
        cases hh : lowS.has d' with
        | false => rfl
        | true => rw [has_lowS] at hh; omega
  · rw [hq]; rfl

/-! ### The table of positions while reading -/

/-- The columns as text. -/
def rawIons (ps : List IonPos) : Dict Key PyVal :=
  if ps = [] then [] else
  [(.str (py"index"), .list (ps.map fun p => .str p.idx.text)),
   (.str (py"u"), .list (ps.map fun p => .str p.u.text)),
   (.str (py"v"), .list (ps.map fun p => .str p.v.text)),
   (.str (py"w"), .list (ps.map fun p => .str p.w.text)),
   (.str (py"spec"), .list (ps.map fun p => .str p.spec)),
   (.str (py"mass"), .list (ps.map fun p => .str p.mass.text))]

theorem stack_ion (ps : List IonPos) (p : IonPos) :
    stackInto (rawIons ps) [(.str (py"index"), .str p.idx.text), (.str (py"u"), .str p.u.text),
      (.str (py"v"), .str p.v.text), (.str (py"w"), .str p.w.text), (.str (py"spec"), .str p.spec),
      (.str (py"mass"), .str p.mass.text)] = .ok (rawIons (ps ++ [p])) := by
  cases ps with
  | nil => rfl
  | cons a ps =>
    simp only [rawIons, List.map_append]
    rfl

theorem fix_some (d : Dict Key PyVal) (k : Key) (t : Ty) (r : List (Key × Ty)) (v w : PyVal)
    (h : d.get? k = some v) (hw : to_type t v = .ok w) :
    fix_data_types d ((k, t) :: r) = fix_data_types (d.set k w) r := by
  rw [fix_data_types, h]; show (do let v ← to_type t v; _ : PyM _) = _; rw [hw]; rfl

theorem ions_typed (rd : Numeral → F64) (ps : List IonPos) (hp : ∀ p ∈ ps, p.Ok)
    (hr : ∀ p ∈ ps, ∀ n ∈ [p.u, p.v, p.w, p.mass], parse_float_or_rational n.text = .ok (rd n)) :
    fix_data_types (rawIons ps) Header.coordTypes = .ok (ionTable rd ps) := by
  cases hps : ps with
  | nil => rfl
  | cons a as =>
    rw [← hps]
    have hne : ps ≠ [] := by rw [hps]; simp
    have ti : to_type .int (.list (ps.map fun p => .str p.idx.text)) = .ok (.tuple (ps.map fun p => .int (intOf p.idx))) := by
      have := to_type_strList .int ps (fun p => p.idx.text) _ fun p h => typeParser_int (hp p h).1 (hp p h).2.1
      simpa [strList, Function.comp_def] using this
    have tf : ∀ f : IonPos → Numeral, (∀ p ∈ ps, f p ∈ [p.u, p.v, p.w, p.mass]) →
        to_type .float (.list (ps.map fun p => .str (f p).text)) = .ok (.tuple (ps.map fun p => .float (rd (f p)))) := by
      intro f hf
      have := to_type_strList .float ps (fun p => (f p).text) _ fun p h => typeParser_float (hr p h (f p) (hf p h))
      simpa [strList, Function.comp_def] using this
    have tu := tf (·.u) (by simp)
    have tv := tf (·.v) (by simp)
    have tw := tf (·.w) (by simp)
    have tm := tf (·.mass) (by simp)
    rw [rawIons, if_neg hne, ionTable, if_neg hne]
    generalize (PyVal.list (ps.map fun p => .str p.idx.text)) = A at ti ⊢
    generalize (PyVal.list (ps.map fun p => .str p.u.text)) = B at tu ⊢
    generalize (PyVal.list (ps.map fun p => .str p.v.text)) = C at tv ⊢
    generalize (PyVal.list (ps.map fun p => .str p.w.text)) = D at tw ⊢
    generalize (PyVal.list (ps.map fun p => .str p.mass.text)) = E at tm ⊢
    rw [Header.coordTypes, fix_some _ _ _ _ _ _ (by rfl) ti]
    rw [fix_some _ _ _ _ _ _ (by rfl) tu]
    rw [fix_some _ _ _ _ _ _ (by rfl) tv]
    rw [fix_some _ _ _ _ _ _ (by rfl) tw]
    rw [fix_some _ _ _ _ _ _ (by rfl) tm]
    rfl

/-! ### The loop -/

/-- The pattern looks for the text `opt`. -/
def Looks (extra : Pat) (opt : Str) : Prop :=
  ∀ l, ((extra.search l).isSome = true ↔ Occurs opt l) ∧ ∀ m, extra.search l = some m → m.whole = opt

theorem looks_lit (p : Pat) (s : Str) (hp : p.re = .group 1 (litRe s)) : Looks p s := fun l => search_group_lit p s hp l

theorem loop_cons (extra : Pat) (fuel : Nat) (line : Str) (rest : List Str) (data coords : Dict Key PyVal) :
    Header.loop extra (fuel + 1) (line :: rest) data coords =
    (if Str.startsWith (Str.strip line) (py"Number of") then do
      let (key, n) ← Header.countLine line
      Header.loop extra fuel rest (data.set (.str key) (.int n)) coords
    else if Str.contains (py"Unit cell vectors") line then do
      let (v, rest) ← Header.cellRows rest
      Header.loop extra fuel rest (data.set (.str (py"unit_cell")) v) coords
    else do
      let (data, coords) ← Header.otherLine extra line data coords
      Header.loop extra fuel rest data coords) := rfl

theorem loop_count {extra : Pat} {fuel : Nat} {line : Str} {rest : List Str} {data coords : Dict Key PyVal}
    (h : IsCount line) {key : Str} {n : Int} (hc : Header.countLine line = .ok (key, n)) :
    Header.loop extra (fuel + 1) (line :: rest) data coords =
      Header.loop extra fuel rest (data.set (.str key) (.int n)) coords := by
  rw [loop_cons, if_pos ((isCount_iff line).2 h), hc]; rfl

theorem loop_cell {extra : Pat} {fuel : Nat} {line : Str} {rest rest' : List Str} {data coords : Dict Key PyVal}
    (h : ¬ IsCount line) (hu : Occurs (py"Unit cell vectors") line) {v : PyVal} (hc : Header.cellRows rest = .ok (v, rest')) :
    Header.loop extra (fuel + 1) (line :: rest) data coords =
      Header.loop extra fuel rest' (data.set (.str (py"unit_cell")) v) coords := by
  rw [loop_cons, if_neg (fun e => h ((isCount_iff line).1 e)), if_pos ((Str.contains_iff _ _).2 hu), hc]; rfl

theorem loop_other {extra : Pat} {fuel : Nat} {line : Str} {rest : List Str} {data coords : Dict Key PyVal}
    (h : ¬ IsCount line) (hu : ¬ Occurs (py"Unit cell vectors") line) {d c : Dict Key PyVal}
    (hc : Header.otherLine extra line data coords = .ok (d, c)) :
    Header.loop extra (fuel + 1) (line :: rest) data coords = Header.loop extra fuel rest d c := by
  rw [loop_cons, if_neg (fun e => h ((isCount_iff line).1 e)), if_neg (fun e => hu ((Str.contains_iff _ _).1 e)), hc]; rfl

theorem otherLine_ion (extra : Pat) {line : Str} {p : IonPos} (hp : p.Ok)
    (h : Fields line [p.idx.text, p.u.text, p.v.text, p.w.text, p.spec, p.mass.text]) (data : Dict Key PyVal)
    (ps : List IonPos) : Header.otherLine extra line data (rawIons ps) = .ok (data, rawIons (ps ++ [p])) := by
  obtain ⟨m, hm, hg⟩ := ion_match Res.FRACCOORDS_RE FRAC_eq hp h
  have h3 := ion_ad3 Res.ATOMIC_DATA_3VEC (by rw [AD3_eq]) hp h
  unfold Header.otherLine
  rw [h3, hm]
  show (do let c ← stackInto (rawIons ps) (groupVals m); pure _ : PyM _) = _
  rw [hg, stack_ion]; rfl

theorem otherLine_note (extra : Pat) (opt : Str) (he : Looks extra opt) (rd : Numeral → F64) {line : Str} (hit : Bool)
    (nums : List Numeral) (hp : Plain line) (hh : hit = true ↔ Occurs opt line) (hn : HasNumbers line nums)
    (hv : ∀ n ∈ nums, n.Valid)
    (hr : hit = true → ∀ n ∈ nums, parse_float_or_rational n.text = .ok (rd n)) (data coords : Dict Key PyVal) :
    Header.otherLine extra line data coords =
      .ok (((HeadItem.note hit nums).entries opt rd).foldl (fun d kv => Dict.set d kv.1 kv.2) data, coords) := by
  have h3 := ad3_none Res.ATOMIC_DATA_3VEC (by rw [AD3_eq]) (plain_noVec hp)
  have hf := frac_none Res.FRACCOORDS_RE (by rw [FRAC_eq]) (plain_noVec hp)
  unfold Header.otherLine
  rw [h3, hf]
  cases hs : extra.search line with
  | none =>
    have : hit = false := by
      cases hit with
      | false => rfl
      | true => have := (he line).1.2 (hh.1 rfl); rw [hs] at this; cases this
    subst this; rfl
  | some m =>
    have : hit = true := hh.2 ((he line).1.1 (by rw [hs]; rfl))
    subst this
    show (do let v ← numbersOf line; pure _ : PyM _) = _
    rw [numbersOf_of hn hv (hr rfl), (he line).2 m hs]; rfl

theorem loop_item_coords (extra : Pat) (opt : Str) (he : Looks extra opt) (rd : Numeral → F64) (item : HeadItem) (ls : List Str)
    (hni : ∀ p, item ≠ .ion p) (hl : item.Lines opt ls) (hr : ∀ n ∈ item.nums, parse_float_or_rational n.text = .ok (rd n))
    (fuel : Nat) (tail : List Str) (d cs : Dict Key PyVal) (hf : ls.length + tail.length < fuel) :
    ∃ fuel', tail.length < fuel' ∧ Header.loop extra fuel (ls ++ tail) d cs =
      Header.loop extra fuel' tail ((item.entries opt rd).foldl (fun d kv => Dict.set d kv.1 kv.2) d)
        cs := by
  cases fuel with
  | zero => omega
  | succ fuel =>
    cases item with
    | count key n =>
      obtain ⟨line, rfl, h1, -, h3, h4, h5, h6⟩ := hl
      refine ⟨fuel, by simp at hf; omega, ?_⟩
      rw [List.singleton_append, loop_count h1 (countLine_of h3 h4 h5 h6)]
      simp [HeadItem.entries]
    | cell rows =>
      obtain ⟨title, a, b, c, x, y, z, rfl, rfl, h1, h2, -, h4⟩ := hl
      refine ⟨fuel, by simp at hf; omega, ?_⟩
      have rows : ∀ line r, (line, r) ∈ [(a, x), (b, y), (c, z)] →
          wordsTo .float line = .ok (.tuple (r.map fun n => .float (rd n))) := by
        intro line r hm
        refine wordsTo_float (h4 _ hm).1 fun n hn => hr n ?_
        show n ∈ [x, y, z].flatten
        rw [List.mem_flatten]
        refine ⟨r, ?_, hn⟩
        simp at hm ⊢
        rcases hm with ⟨-, rfl⟩ | ⟨-, rfl⟩ | ⟨-, rfl⟩ <;> simp
      have hc : Header.cellRows (a :: b :: c :: tail) =
          .ok (.list ([x, y, z].map fun r => .tuple (r.map fun n => .float (rd n))), tail) := by
        have nr : ∀ l v ls, wordsTo .float l = .ok v → Header.nextRow (l :: ls) = .ok (v, ls) := by
          intro l v ls h; rw [Header.nextRow, h]; rfl
        rw [Header.cellRows, nr a _ _ (rows a x (by simp))]
        show (do let r ← Header.nextRow (b :: c :: tail); _ : PyM _) = _
        rw [nr b _ _ (rows b y (by simp))]
        show (do let r ← Header.nextRow (c :: tail); _ : PyM _) = _
        rw [nr c _ _ (rows c z (by simp))]
        rfl
      show Header.loop extra (fuel + 1) (title :: a :: b :: c :: tail) d cs = _
      rw [loop_cell h2 h1 hc]
      simp [HeadItem.entries]
    | ion p => exact absurd rfl (hni p)
    | note hit nums =>
      obtain ⟨line, rfl, h1, h2, h3, h4, h5, h6⟩ := hl
      refine ⟨fuel, by simp at hf; omega, ?_⟩
      rw [List.singleton_append, loop_other h1 h2 (otherLine_note extra opt he rd hit nums h3 h4 h5
        (fun n hn => (h6 n hn).1) (fun hh n hn => hr n (by
          show n ∈ (if hit = true then nums else [])
          rw [if_pos hh]; exact hn)) d cs)]

theorem loop_item (extra : Pat) (opt : Str) (he : Looks extra opt) (rd : Numeral → F64) (item : HeadItem) (ls : List Str)
    (hl : item.Lines opt ls) (hr : ∀ n ∈ item.nums, parse_float_or_rational n.text = .ok (rd n))
    (fuel : Nat) (tail : List Str) (d : Dict Key PyVal) (ps : List IonPos) (hf : ls.length + tail.length < fuel) :
    ∃ fuel', tail.length < fuel' ∧ Header.loop extra fuel (ls ++ tail) d (rawIons ps) =
      Header.loop extra fuel' tail ((item.entries opt rd).foldl (fun d kv => Dict.set d kv.1 kv.2) d)
        (rawIons (ps ++ ionsOf [item])) := by
  by_cases hni : ∀ p, item ≠ .ion p
  · obtain ⟨fuel', h1, h2⟩ := loop_item_coords extra opt he rd item ls hni hl hr fuel tail d (rawIons ps) hf
    refine ⟨fuel', h1, ?_⟩
    rw [h2]
    cases item with
    | ion p => exact absurd rfl (hni p)
    | _ => simp [ionsOf]
  · simp only [ne_eq, not_forall, not_not] at hni
    obtain ⟨p, rfl⟩ := hni
    cases fuel with
    | zero => omega
    | succ fuel =>
      obtain ⟨line, rfl, h1, h2⟩ := hl
      refine ⟨fuel, by simp at hf; omega, ?_⟩
      obtain ⟨n1, n2⟩ := ion_notTitle h1 h2
      rw [List.singleton_append, loop_other n1 n2 (otherLine_ion extra h1 h2 d ps)]
      simp [HeadItem.entries, ionsOf]

theorem loop_items (extra : Pat) (opt : Str) (he : Looks extra opt) (rd : Numeral → F64) (items : List HeadItem)
    (lines : List (List Str)) (hl : List.Forall₂ (HeadItem.Lines opt) items lines)
    (hr : ∀ i ∈ items, ∀ n ∈ i.nums, parse_float_or_rational n.text = .ok (rd n)) :
    ∀ (fuel : Nat) (d : Dict Key PyVal) (ps : List IonPos), lines.flatten.length < fuel →
    Header.loop extra fuel lines.flatten d (rawIons ps) =
      .ok ((items.flatMap (HeadItem.entries opt rd)).foldl (fun d kv => Dict.set d kv.1 kv.2) d,
        rawIons (ps ++ ionsOf items)) := by
  induction hl with
  | nil =>
    intro fuel d ps hf
    cases fuel with
    | zero => simp at hf
    | succ fuel => simp [Header.loop, ionsOf]
  | @cons item ls items lines h1 _ ih =>
    intro fuel d ps hf
    rw [List.flatten_cons, List.length_append] at hf
    obtain ⟨fuel', hf', e⟩ := loop_item extra opt he rd item ls h1 (hr item (by simp)) fuel lines.flatten d ps hf
    rw [List.flatten_cons, e, ih (fun i hi => hr i (by simp [hi])) fuel' _ _ hf']
    rw [List.flatMap_cons, List.foldl_append, List.append_assoc]
    congr 3
    rw [ionsOf, ionsOf, ionsOf, ← List.filterMap_append, List.singleton_append]

theorem regular_header (extra : Pat) (opt : Str) (he : Looks extra opt) (rd : Numeral → F64) (items : List HeadItem)
    (lines : List (List Str)) (hl : List.Forall₂ (HeadItem.Lines opt) items lines)
    (hr : ∀ i ∈ items, ∀ n ∈ i.nums, parse_float_or_rational n.text = .ok (rd n)) :
    parse_regular_header extra lines.flatten = .ok (headerOf opt rd items) := by
  have h := loop_items extra opt he rd items lines hl hr (lines.flatten.length + 1) [] [] (by omega)
  have hions : ∀ p ∈ ionsOf items, p.Ok ∧ ∃ i ∈ items, i = .ion p := by
    clear h hr
    induction hl with
    | nil => intro p hp; cases hp
    | @cons item ls items lines h1 _ ih =>
      intro p hp
      rw [ionsOf, List.mem_filterMap] at hp
      obtain ⟨i, hi, e⟩ := hp
      rcases List.mem_cons.1 hi with rfl | hi
      · cases i with
        | ion q =>
          simp at e; subst e
          obtain ⟨line, -, h2, -⟩ := h1
          exact ⟨h2, _, by simp, rfl⟩
        | _ => simp at e
      · obtain ⟨a, j, b, c⟩ := ih p (by rw [ionsOf, List.mem_filterMap]; exact ⟨i, hi, e⟩)
        exact ⟨a, j, by simp [b], c⟩
  rw [parse_regular_header]
  have h' : Header.loop extra (lines.flatten.length + 1) lines.flatten [] [] = _ := h
  rw [h']
  show (do let c ← fix_data_types (rawIons ([] ++ ionsOf items)) Header.coordTypes; pure _ : PyM _) = _
  rw [List.nil_append, ions_typed rd (ionsOf items) (fun p hp => (hions p hp).1) ?_]
  · rfl
  · intro p hp n hn
    obtain ⟨-, i, hi, rfl⟩ := hions p hp
    exact hr _ hi n hn

end Verif
