import Verif.Lemmas.Fields
import Verif.Lemmas.AtomRe
import Verif.Lemmas.MdFile
import Verif.Spec.Header
import Verif.Model.Tables
/-
Words of a line, and rows of three numbers in it.
-/
namespace Verif
open Re Spec NumRe AtomRe

/-! ### Words -/

theorem fields_blank {g : Str} (h : Blank g) : Fields g [] := .nil fun c hc => by simp [h c hc]

theorem blank_of_fields {g : Str} (h : Fields g []) : Blank g := by
  generalize hw : ([] : List Str) = ws at h
  cases h with
  | nil h => intro c hc; simpa using h c hc
  | cons _ _ _ _ _ => cases hw

theorem fields_prepend {g s : Str} {ws : List Str} (hg : Blank g) (h : Fields s ws) : Fields (g ++ s) ws := by
  cases h with
  | nil h =>
    refine .nil ?_
    intro c hc
    rcases List.mem_append.1 hc with hc | hc
    · simp [hg c hc]
    · exact h c hc
  | @cons g' w s ws h1 h2 h3 h4 h5 =>
    have : g ++ (g' ++ w ++ s) = (g ++ g') ++ w ++ s := by simp
    rw [this]
    exact .cons (fun c hc => by
      rcases List.mem_append.1 hc with hc | hc
      · simp [hg c hc]
      · exact h1 c hc) h2 h3 h4 h5

theorem fields_gap {a g b : Str} {ws vs : List Str} (ha : Fields a ws) (hg : Blank g) (hne : g ≠ []) (hb : Fields b vs) :
    Fields (a ++ (g ++ b)) (ws ++ vs) := by
  induction ha with
  | @nil a h =>
    rw [← List.append_assoc]
    exact fields_prepend (fun c hc => by
      rcases List.mem_append.1 hc with hc | hc
      · simpa using h c hc
      · exact hg c hc) hb
  | @cons g' w s ws h1 h2 h3 h4 _ ih =>
    have : g' ++ w ++ s ++ (g ++ b) = g' ++ w ++ (s ++ (g ++ b)) := by simp
    rw [this]
    refine .cons h1 h2 h3 ?_ ih
    intro c hc
    cases s with
    | nil =>
      cases g with
      | nil => exact absurd rfl hne
      | cons d g => simp at hc; subst hc; simp [hg d (by simp)]
    | cons d s => exact h4 c (by simpa using hc)

theorem fields_word {w : Str} (hne : w ≠ []) (h : ∀ c ∈ w, isSpace c = false) : Fields w [w] := by
  have : w = [] ++ w ++ [] := by simp
  conv => lhs; rw [this]
  exact .cons (by simp) hne (fun c hc => by simp [h c hc]) (by simp) (fields_blank (by intro c hc; cases hc))

theorem fields_start {w b : Str} (hne : w ≠ []) (h : ∀ c ∈ w, isSpace c = false) :
    ∃ w' ws, Fields (w ++ b) (w' :: ws) ∧ w <+: w' := by
  have hb : b = b.takeWhile (fun c => !isSpace c) ++ b.dropWhile (fun c => !isSpace c) := List.takeWhile_append_dropWhile.symm
  have e : w ++ b = [] ++ (w ++ b.takeWhile (fun c => !isSpace c)) ++ b.dropWhile (fun c => !isSpace c) := by
    conv => lhs; rw [hb]
    simp
  refine ⟨w ++ b.takeWhile (fun c => !isSpace c), Str.split (b.dropWhile fun c => !isSpace c), ?_, List.prefix_append _ _⟩
  rw [e]
  refine .cons (by simp) (by simp [hne]) ?_ ?_ (split_fields _)
  · intro c hc
    rcases List.mem_append.1 hc with hc | hc
    · simp [h c hc]
    · have := List.all_takeWhile (l := b) (p := fun c => !isSpace c)
      exact List.all_eq_true.1 this c hc
  · intro c hc
    have := List.head?_dropWhile_not (fun c => !isSpace c) b
    rw [hc] at this
    simpa using this

/-- Take the first word off a line. -/
theorem fields_uncons {line w : Str} {ws : List Str} (h : Fields line (w :: ws)) :
    ∃ g s, line = g ++ (w ++ s) ∧ Blank g ∧ w ≠ [] ∧ (∀ c ∈ w, isSpace c = false) ∧
      (∀ c, s.head? = some c → isSpace c = true) ∧ Fields s ws := by
  generalize hv : w :: ws = vs at h
  cases h with
  | nil _ => cases hv
  | @cons g w' s ws' h1 h2 h3 h4 h5 =>
    cases hv
    exact ⟨g, s, by simp, fun c hc => by simpa using h1 c hc, h2, fun c hc => by simpa using h3 c hc,
      fun c hc => by simpa using h4 c hc, h5⟩

/-- The rest after a word begins with a gap if there is another word. -/
theorem fields_gap_inv {s w : Str} {ws : List Str} (hs : ∀ c, s.head? = some c → isSpace c = true)
    (h : Fields s (w :: ws)) : ∃ g t, s = g ++ (w ++ t) ∧ Blank g ∧ g ≠ [] ∧ w ≠ [] ∧ (∀ c ∈ w, isSpace c = false) ∧
      (∀ c, t.head? = some c → isSpace c = true) ∧ Fields t ws := by
  obtain ⟨g, t, rfl, h1, h2, h3, h4, h5⟩ := fields_uncons h
  refine ⟨g, t, rfl, h1, ?_, h2, h3, h4, h5⟩
  rintro rfl
  cases w with
  | nil => exact h2 rfl
  | cons c w =>
    have e1 := hs c rfl
    have e2 := h3 c (by simp)
    rw [e1] at e2; cases e2

/-! ### Three numbers in a row -/

/-- Three numbers, each after a gap. -/
def HasVec (s : Str) : Prop := ∃ a g₁ n₁ g₂ n₂ g₃ n₃ b, s = a ++ (g₁ ++ (n₁ ++ (g₂ ++ (n₂ ++ (g₃ ++ (n₃ ++ b)))))) ∧
  Blank g₁ ∧ g₁ ≠ [] ∧ Blank g₂ ∧ g₂ ≠ [] ∧ Blank g₃ ∧ g₃ ≠ [] ∧ Lang N n₁ ∧ Lang N n₂ ∧ Lang N n₃

theorem lang_N_word {w : Str} (h : Lang N w) : w ≠ [] ∧ (∀ c ∈ w, isSpace c = false) ∧ hasDigit w = true := by
  obtain ⟨n, hn, rfl⟩ := lang_N h
  refine ⟨text_ne_nil n hn, text_nospace n hn, ?_⟩
  obtain ⟨d, hd, hd'⟩ := text_digit n hn
  rw [hasDigit, List.any_eq_true]
  exact ⟨d, hd, by simpa [isDigit] using hd'⟩

theorem hasDigit_prefix {w w' : Str} (h : w <+: w') (hw : hasDigit w = true) : hasDigit w' = true := by
  obtain ⟨t, rfl⟩ := h
  rw [hasDigit, List.any_append]
  rw [hasDigit] at hw
  rw [hw, Bool.true_or]

/-- The words of a line with three numbers in a row. -/
theorem hasVec_fields {s : Str} (h : HasVec s) : ∃ ws n₁ n₂ w vs, Fields s (ws ++ (n₁ :: n₂ :: w :: vs)) ∧
    hasDigit n₁ = true ∧ hasDigit n₂ = true ∧ hasDigit w = true := by
  obtain ⟨a, g₁, n₁, g₂, n₂, g₃, n₃, b, rfl, hg1, hn1, hg2, hn2, hg3, hn3, l1, l2, l3⟩ := h
  obtain ⟨p1, q1, r1⟩ := lang_N_word l1
  obtain ⟨p2, q2, r2⟩ := lang_N_word l2
  obtain ⟨p3, q3, r3⟩ := lang_N_word l3
  obtain ⟨w, vs, hw, hpre⟩ := fields_start (b := b) p3 q3
  refine ⟨Str.split a, n₁, n₂, w, vs, ?_, r1, r2, hasDigit_prefix hpre r3⟩
  exact fields_gap (split_fields a) hg1 hn1 (fields_gap (fields_word p1 q1) hg2 hn2 (fields_gap (fields_word p2 q2) hg3 hn3 hw))

theorem fields_unique {s : Str} {ws vs : List Str} (h : Fields s ws) (h' : Fields s vs) : ws = vs := by
  rw [← fields_split h, fields_split h']

theorem plain_noVec {s : Str} (h : Plain s) : ¬ HasVec s := by
  intro hv
  obtain ⟨ws, n₁, n₂, w, vs, hf, h1, h2, h3⟩ := hasVec_fields hv
  obtain ⟨us, hu, hlt⟩ := h
  rw [fields_unique hu hf, List.filter_append, List.filter_cons, if_pos h1, List.filter_cons, if_pos h2,
    List.filter_cons, if_pos h3] at hlt
  simp at hlt
  omega

theorem lang_gapNum {w : Str} {g : Bool} {r : Re} (h : Lang (.seq (.rep g 1 none (.set sp)) r) w) :
    ∃ a b, w = a ++ b ∧ Blank a ∧ a ≠ [] ∧ Lang r b := by
  obtain ⟨a, b, rfl, h1, h2⟩ := h
  rw [lang_rep_set] at h1
  refine ⟨a, b, rfl, fun c hc => by have := h1.1 c hc; rwa [has_sp] at this, ?_, h2⟩
  rintro rfl
  simp at h1

theorem lang_LF3 {w : Str} (i j k : Nat) (h : Lang (.seq (LF i) (.seq (LF j) (LF k))) w) :
    ∃ g₁ n₁ g₂ n₂ g₃ n₃, w = g₁ ++ (n₁ ++ (g₂ ++ (n₂ ++ (g₃ ++ n₃)))) ∧
      Blank g₁ ∧ g₁ ≠ [] ∧ Blank g₂ ∧ g₂ ≠ [] ∧ Blank g₃ ∧ g₃ ≠ [] ∧ Lang N n₁ ∧ Lang N n₂ ∧ Lang N n₃ := by
  obtain ⟨u, v, rfl, h1, u', v', rfl, h2, h3⟩ := h
  obtain ⟨g₁, n₁, rfl, a1, b1, c1⟩ := lang_gapNum h1
  obtain ⟨g₂, n₂, rfl, a2, b2, c2⟩ := lang_gapNum h2
  obtain ⟨g₃, n₃, rfl, a3, b3, c3⟩ := lang_gapNum h3
  exact ⟨g₁, n₁, g₂, n₂, g₃, n₃, by simp, a1, b1, a2, b2, a3, b3, c1, c2, c3⟩

/-- A found match somewhere in the text. -/
theorem search_found {p : Pat} {s : Str} {m : Match} (h : p.search s = some m) :
    ∃ a b, s = a ++ (m.whole ++ b) ∧ Lang p.re m.whole := by
  obtain ⟨g, r, h1, h2⟩ := Pat.searchFrom_some p s [] h
  obtain ⟨e, -, hl, -⟩ := Pat.matchAt_some h2
  exact ⟨g, m.after, by rw [h1, e], hl⟩

theorem match_found {p : Pat} {s : Str} {m : Match} (h : p.match_ s = some m) :
    ∃ b, s = m.whole ++ b ∧ Lang p.re m.whole := by
  obtain ⟨e, -, hl, -⟩ := Pat.matchAt_some h
  exact ⟨m.after, e, hl⟩

theorem AD3_eq : Res.ATOMIC_DATA_3VEC = ⟨.seq (.group 1 A) (.seq (plus sp) (.seq (.group 2 (plus dig))
    (.seq (LF 3) (.seq (LF 4) (LF 5))))), [(py"spec", 1), (py"index", 2), (py"x", 3), (py"y", 4), (py"z", 5)], 5⟩ := by
  decide +kernel

/-- `[A-Z][a-z]{0,2}` -/
abbrev SPC : Re := .seq (.set upS) (.rep true 0 (some 2) (.set lowS))

theorem FRAC_eq : Res.FRACCOORDS_RE = ⟨.seq (star sp) (.seq (.group 1 I) (.seq (LF 2) (.seq (LF 3) (.seq (LF 4)
    (.seq (star sp) (.seq (.group 5 SPC) (LF 6))))))), [(py"index", 1), (py"u", 2), (py"v", 3), (py"w", 4), (py"spec", 5),
    (py"mass", 6)], 6⟩ := by decide +kernel

theorem VEC_eq : Bands.THREEVEC_RE = ⟨.group 1 (.rep true 3 (some 3) (.seq (.rep false 1 none (.set sp)) N)),
    [(py"val", 1)], 1⟩ := by decide +kernel

theorem ad3_none (p : Pat) (hp : p.re = .seq (.group 1 A) (.seq (plus sp) (.seq (.group 2 (plus dig))
    (.seq (LF 3) (.seq (LF 4) (LF 5)))))) {s : Str} (h : ¬ HasVec s) : p.search s = none := by
  cases hs : p.search s with
  | none => rfl
  | some m =>
    exfalso
    obtain ⟨a, b, e, hl⟩ := search_found hs
    rw [hp] at hl
    obtain ⟨u, v, e1, -, u2, v2, rfl, -, u3, v3, rfl, -, hv⟩ := hl
    obtain ⟨g₁, n₁, g₂, n₂, g₃, n₃, rfl, a1, b1, a2, b2, a3, b3, c1, c2, c3⟩ := lang_LF3 3 4 5 hv
    exact h ⟨a ++ (u ++ (u2 ++ u3)), g₁, n₁, g₂, n₂, g₃, n₃, b, by rw [e, e1]; simp, a1, b1, a2, b2, a3, b3, c1, c2, c3⟩

theorem frac_none (p : Pat) (hp : p.re = .seq (star sp) (.seq (.group 1 I) (.seq (LF 2) (.seq (LF 3) (.seq (LF 4)
    (.seq (star sp) (.seq (.group 5 SPC) (LF 6)))))))) {s : Str} (h : ¬ HasVec s) : p.match_ s = none := by
  cases hs : p.match_ s with
  | none => rfl
  | some m =>
    exfalso
    obtain ⟨b, e, hl⟩ := match_found hs
    rw [hp] at hl
    obtain ⟨u, v, e1, -, u2, v2, rfl, -, u3, v3, rfl, h1, u4, v4, rfl, h2, u5, v5, rfl, h3, -⟩ := hl
    obtain ⟨g₁, n₁, rfl, a1, b1, c1⟩ := lang_gapNum h1
    obtain ⟨g₂, n₂, rfl, a2, b2, c2⟩ := lang_gapNum h2
    obtain ⟨g₃, n₃, rfl, a3, b3, c3⟩ := lang_gapNum h3
    exact h ⟨u ++ u2, g₁, n₁, g₂, n₂, g₃, n₃, v5 ++ b, by rw [e, e1]; simp, a1, b1, a2, b2, a3, b3, c1, c2, c3⟩

theorem vec_none (p : Pat) (hp : p.re = .group 1 (.rep true 3 (some 3) (.seq (.rep false 1 none (.set sp)) N)))
    {s : Str} (h : ¬ HasVec s) : p.search s = none := by
  cases hs : p.search s with
  | none => rfl
  | some m =>
    exfalso
    obtain ⟨a, b, e, hl⟩ := search_found hs
    rw [hp] at hl
    obtain ⟨ws, hw, h3, h3', hall⟩ := hl
    have h3' := h3' 3 rfl
    match ws, h3, h3', hall with
    | [x, y, z], _, _, hall =>
      obtain ⟨g₁, n₁, rfl, a1, b1, c1⟩ := lang_gapNum (hall x (by simp))
      obtain ⟨g₂, n₂, rfl, a2, b2, c2⟩ := lang_gapNum (hall y (by simp))
      obtain ⟨g₃, n₃, rfl, a3, b3, c3⟩ := lang_gapNum (hall z (by simp))
      exact h ⟨a, g₁, n₁, g₂, n₂, g₃, n₃, b, by rw [e, hw]; simp, a1, b1, a2, b2, a3, b3, c1, c2, c3⟩
    | [], h3, _, _ => simp at h3
    | [_], h3, _, _ => simp at h3
    | [_, _], h3, _, _ => simp at h3
    | _ :: _ :: _ :: _ :: _, _, h3', _ => simp at h3'

/-- A gap and a number, not captured. -/
theorem run_SN (g : Str) (n : Numeral) (hg : Blank g) (hne : g ≠ []) (hn : n.Valid) (pre rest : Str) (caps)
    (k : St → Option β) (x : β) (hr : EndsNumber rest)
    (hk : k ⟨(g ++ n.text).reverse ++ pre, rest, caps⟩ = some x) :
    run (.seq (.rep false 1 none (.set sp)) N) ⟨pre, g ++ (n.text ++ rest), caps⟩ k = some x := by
  rw [run_seq]
  have hsp : ∀ c, isSpace c = true → isDigit c = false ∧ c ≠ 43 ∧ c ≠ 45 ∧ c ≠ 46 := by
    intro c hc
    simp [isSpace] at hc
    simp [isDigit]
    omega
  apply run_lazy_all sp 1 g _ _ _ _ _ (by cases g with | nil => exact absurd rfl hne | cons c g => simp)
    (fun c hc => by rw [has_sp]; exact hg c hc)
  · intro u v e hv _
    apply run_N_gap v _ _ _ _ hv (fun c hc => (hsp c (hg c (by rw [e]; simp [hc]))).1)
    intro c hc
    exact (hsp c (hg c (by rw [e]; exact List.mem_append_right _ (List.mem_of_getLast? hc)))).2
  · apply run_N n hn _ _ _ _ _ ?_ hr
    · rw [← hk]; simp
    · cases hh : g.reverse with
      | nil => simp at hh; exact absurd hh hne
      | cons c q =>
        have := (hsp c (hg c (by have : c ∈ g.reverse := by rw [hh]; simp
                                 simpa using this))).2.2.2
        simpa using this

theorem endsNumber_of_space {s : Str} (h : ∀ c, s.head? = some c → isSpace c = true) : EndsNumber s := by
  cases s with
  | nil => exact .nil
  | cons c s => exact .space (h c rfl)

theorem vec_some (p : Pat) (hp : p.re = .group 1 (.rep true 3 (some 3) (.seq (.rep false 1 none (.set sp)) N)))
    {s : Str} {x y z : Numeral} (hx : x.Valid) (hy : y.Valid) (hz : z.Valid)
    (hs : ∃ c r, s = c :: r ∧ isSpace c = true) (h : Fields s [x.text, y.text, z.text]) : (p.search s).isSome = true := by
  obtain ⟨g₁, t1, rfl, a1, b1, -, -, d1, h1⟩ := fields_gap_inv (by
    intro c hc; obtain ⟨d, r, rfl, hd⟩ := hs; simp at hc; subst hc; exact hd) h
  obtain ⟨g₂, t2, rfl, a2, b2, -, -, d2, h2⟩ := fields_gap_inv d1 h1
  obtain ⟨g₃, t3, rfl, a3, b3, -, -, d3, h3⟩ := fields_gap_inv d2 h2
  have e1 := endsNumber_of_space d1
  have e2 := endsNumber_of_space d2
  have e3 := endsNumber_of_space d3
  have hm : (p.matchAt [] (g₁ ++ (x.text ++ (g₂ ++ (y.text ++ (g₃ ++ (z.text ++ t3))))))).isSome = true := by
    rw [Pat.matchAt_eq, Option.isSome_map, hp]
    have lt1 : ∀ (g : Str) (n : Numeral) (r : Str), g ≠ [] → r.length < (g ++ (n.text ++ r)).length := by
      intro g n r hg
      have := List.length_pos_iff.2 hg
      simp; omega
    have r0 : ∀ (s : St), run (.rep true 0 (some 0) (.seq (.rep false 1 none (.set sp)) N)) s (fun t => some (⟨t.pre, t.post, (1, (⟨[], g₁ ++ (x.text ++ (g₂ ++ (y.text ++ (g₃ ++ (z.text ++ t3))))), []⟩ : St).upTo t) :: t.caps⟩ : St))
        = some ⟨s.pre, s.post, (1, (⟨[], g₁ ++ (x.text ++ (g₂ ++ (y.text ++ (g₃ ++ (z.text ++ t3))))), []⟩ : St).upTo s) :: s.caps⟩ := by
      intro s; rw [run_rep_greedy]; simp
    rw [run_group, run_rep_greedy]
    simp only [if_false, Option.some.injEq, OfNat.ofNat_ne_zero, Option.map_some, Nat.reduceSub]
    rw [run_SN g₁ x a1 b1 hx _ _ _ _ _ e1 (by
      rw [if_pos (lt1 g₁ x _ b1), run_rep_greedy]
      simp only [Option.some.injEq, OfNat.ofNat_ne_zero, if_false, Option.map_some, Nat.reduceSub]
      rw [run_SN g₂ y a2 b2 hy _ _ _ _ _ e2 (by
        rw [if_pos (lt1 g₂ y _ b2), run_rep_greedy]
        simp only [Option.some.injEq, Nat.one_ne_zero, if_false, Option.map_some, Nat.reduceSub]
        rw [run_SN g₃ z a3 b3 hz _ _ _ _ _ e3 (by
          rw [if_pos (lt1 g₃ z _ b3)]
          exact r0 _)]
        rfl)]
      rfl)]
    rfl
  rw [Pat.search]
  cases hh : p.matchAt [] (g₁ ++ (x.text ++ (g₂ ++ (y.text ++ (g₃ ++ (z.text ++ t3)))))) with
  | none => rw [hh] at hm; cases hm
  | some m => rw [Pat.searchFrom_of_matchAt hh]; rfl

/-! ### Literal text in a group -/

theorem search_group_lit (p : Pat) (s : Str) (hp : p.re = .group 1 (litRe s)) (l : Str) :
    ((p.search l).isSome = true ↔ Occurs s l) ∧ ∀ m, p.search l = some m → m.whole = s := by
  have hm : ∀ u v, (p.matchAt u v).isSome = true ↔ ∃ b, v = s ++ b := by
    intro u v
    rw [p.isSome_plain (by rw [hp]; exact plain_lit s), hp]
    constructor
    · rintro ⟨w, b, h, h'⟩
      have h' : Lang (litRe s) w := h'
      rw [lang_lit] at h'; subst h'
      exact ⟨b, h⟩
    · rintro ⟨b, h⟩; exact ⟨s, b, h, (lang_lit s s).2 rfl⟩
  refine ⟨?_, ?_⟩
  · rcases p.search_spec l with ⟨h1, h2⟩ | ⟨u, v, x, h1, h2, h3, _⟩
    · rw [h1]
      refine ⟨fun h => (by cases h), ?_⟩
      rintro ⟨u, v, h⟩
      have h3 := h2 u (s ++ v) (by rw [h]; simp)
      have := (hm u.reverse (s ++ v)).2 ⟨v, rfl⟩
      rw [h3] at this; cases this
    · rw [h2]
      refine ⟨fun _ => ?_, fun _ => rfl⟩
      obtain ⟨b, hb⟩ := (hm u.reverse v).1 (by rw [h3]; rfl)
      exact ⟨u, b, by rw [h1, hb]; simp⟩
  · intro m h
    obtain ⟨a, b, -, hl⟩ := search_found h
    rw [hp] at hl
    exact (lang_lit s _).1 hl

end Verif
