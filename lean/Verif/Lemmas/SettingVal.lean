import Verif.Lemmas.Setting
import Verif.Lemmas.Find
import Verif.Lemmas.Words
import Verif.Spec.Setting
/-
The values of settings.
-/
namespace Verif
namespace Cell
open Spec Re NumRe

/-! ### The separator -/

/-- A greedy star that has to give one character back. -/
theorem run_star_back (cs : CSet) (d : Nat) (hd : cs.has d = true) (rest : Str) (hr : Stops cs rest) :
    ∀ (w pre : Str) (caps) (k : St → Option β) (x : β), (∀ c ∈ w, cs.has c = true) →
      k ⟨d :: (w.reverse ++ pre), rest, caps⟩ = none → k ⟨w.reverse ++ pre, d :: rest, caps⟩ = some x →
      run (star cs) ⟨pre, w ++ d :: rest, caps⟩ k = some x
  | [], pre, caps, k, x, _, h1, h2 => by
    rw [List.nil_append, run_star_cons _ _ (by simp) _ _ _ _ _ hd, Option.map_none, run_star_stop _ _ _ _ _ _ _ hr]
    simp only [List.reverse_nil, List.nil_append] at h1 h2
    rw [h1, h2]; rfl
  | c :: w, pre, caps, k, x, hw, h1, h2 => by
    rw [List.cons_append, run_star_cons _ _ (by simp) _ _ _ _ _ (hw c (by simp)), Option.map_none,
      run_star_back cs d hd rest hr w (c :: pre) caps k x (fun y hy => hw y (by simp [hy])) (by simpa using h1) (by simpa using h2)]
    rfl

/-- What a value may not start with. -/
def Starts (v : Str) : Prop := ∀ c, v.head? = some c → isSpace c = false ∧ c ≠ 58 ∧ c ≠ 61

theorem rest_run {sep v : Str} (hs : Separator sep) (hv : Starts v) (pre : Str) (caps) (k : St → Option β) (x : β)
    (h : run valueRe ⟨(pre.reverse ++ sep).reverse, v, caps⟩ k = some x) :
    run restRe ⟨pre, sep ++ v, caps⟩ k = some x := by
  obtain ⟨a, c, b, rfl, hab, hc⟩ := hs
  have hsp : ∀ y, y = 32 ∨ y = 9 → sp.has y = true := by rintro y (rfl | rfl) <;> decide
  have hstop : Stops sp v := by intro y hy; rw [has_sp]; exact (hv y hy).1
  have hsep : Stops sepS v := by
    intro y hy
    obtain ⟨h1, h2, h3⟩ := hv y hy
    rw [has_sep]
    simp only [Bool.or_eq_false_iff, beq_eq_false_iff_ne]
    refine ⟨⟨⟨?_, ?_⟩, h2⟩, h3⟩ <;> (rintro rfl; revert h1; decide)
  rw [restRe, run_seq]
  by_cases hcb : c = 32 ∨ c = 9
  · -- blanks only
    obtain ⟨w, d, e⟩ : ∃ w d, a ++ c :: b = w ++ [d] :=
      ⟨_, _, (List.dropLast_concat_getLast (l := a ++ c :: b) (by simp)).symm⟩
    have hall : ∀ y ∈ a ++ c :: b, y = 32 ∨ y = 9 := by
      intro y hy
      rcases List.mem_append.1 hy with hy | hy
      · exact hab y (by simp [hy])
      · rcases List.mem_cons.1 hy with rfl | hy
        · exact hcb
        · exact hab y (by simp [hy])
    rw [e] at hall h ⊢
    rw [List.append_assoc, List.singleton_append]
    refine run_star_back sp d (hsp d (hall d (by simp))) v hstop w pre caps _ x (fun y hy => hsp y (hall y (by simp [hy]))) ?_ ?_
    · rw [run_seq, run_set_stops _ hsep]
    · rw [run_seq, run_set_cons, if_pos (by rw [has_sep]; rcases hall d (by simp) with rfl | rfl <;> decide),
        run_seq, run_star_stop _ _ _ _ _ _ _ hstop]
      simpa using h
  · have hc' : c = 58 ∨ c = 61 := by tauto
    have hcs : sp.has c = false := by rcases hc' with rfl | rfl <;> decide
    have e : (a ++ c :: b) ++ v = a ++ (c :: (b ++ v)) := by simp
    rw [e]
    refine run_star_all sp a pre _ none caps _ x (fun y hy => hsp y (hab y (by simp [hy]))) ?_ (by simp) ?_
    · intro y hy; cases hy; exact hcs
    · rw [run_seq, run_set_cons, if_pos (by rw [has_sep]; rcases hc' with rfl | rfl <;> decide), run_seq]
      refine run_star_all sp b _ v none caps _ x (fun y hy => hsp y (hab y (by simp [hy]))) hstop (by simp) ?_
      simpa using h

/-! ### Numbers -/

theorem run_gapN_none (pre s : Str) (caps) (k : St → Option β)
    (h : s = [] ∨ ∃ g c t, s = g ++ c :: t ∧ Blank g ∧ isSpace c = false ∧ ¬ numChar c) :
    run (.seq (star sp) N) ⟨pre, s, caps⟩ k = none := by
  apply run_none
  intro w t hs hl
  exfalso
  obtain ⟨u, v, rfl, hu, hv⟩ := hl
  obtain ⟨d, r, rfl, hd⟩ := lang_head_N hv
  have hub : Blank u := by
    rw [lang_rep_set] at hu
    intro c hc; rw [← has_sp]; exact hu.1 c hc
  have e := hs.post
  simp only at e
  rcases h with rfl | ⟨g, c, t', rfl, hg, hc, hn⟩
  · simp at e
  · have h1 : (g ++ c :: t').dropWhile isSpace = c :: t' := by
      rw [List.dropWhile_append_of_pos (fun x hx => hg x hx), List.dropWhile_cons, hc]; rfl
    have h2 : (u ++ d :: r ++ t.post).dropWhile isSpace = d :: r ++ t.post := by
      rw [List.append_assoc, List.dropWhile_append_of_pos (fun x hx => hub x hx), List.cons_append, List.dropWhile_cons,
        numChar_nospace hd]; rfl
    rw [e, h2] at h1
    rw [(List.cons.inj h1).1] at hd
    exact hn hd

/-- Numbers with blanks between them are read in full. -/
theorem run_nums {v : Str} {ns : List Numeral} (h : NumberRow v ns) :
    ∀ (mn : Nat) (g pre rest : Str) (caps) (k : St → Option β) (x : β), (∀ n ∈ ns, n.Valid) → mn ≤ 1 → Blank g →
      (g ≠ [] ∨ pre.head? ≠ some 46) → EndsNumber rest → (∀ pre caps (k : St → Option β), run (.seq (star sp) N) ⟨pre, rest, caps⟩ k = none) →
      k ⟨(g ++ v).reverse ++ pre, rest, caps⟩ = some x →
      run (.rep true mn none (.seq (star sp) N)) ⟨pre, g ++ (v ++ rest), caps⟩ k = some x := by
  have step : ∀ (n : Numeral) (mn : Nat) (g pre rest : Str) (caps) (k : St → Option β) (x : β), n.Valid → mn ≤ 1 → Blank g →
      (g ≠ [] ∨ pre.head? ≠ some 46) → EndsNumber rest →
      run (.rep true 0 none (.seq (star sp) N)) ⟨(g ++ n.text).reverse ++ pre, rest, caps⟩ k = some x →
      run (.rep true mn none (.seq (star sp) N)) ⟨pre, g ++ (n.text ++ rest), caps⟩ k = some x := by
    intro n mn g pre rest caps k x hn hmn hg hp hr hk
    obtain ⟨c, r, hc, hnc⟩ := text_head n hn
    rw [run_rep_greedy, if_neg (by simp), run_seq]
    rw [run_star_all sp g pre (n.text ++ rest) none caps _ x (fun y hy => by rw [has_sp]; exact hg y hy)
      (by intro y hy; rw [hc] at hy; cases hy; rw [has_sp]; exact numChar_nospace hnc) (by simp)]
    · rfl
    · refine run_N n hn _ rest caps _ x ?_ hr ?_
      · rcases hp with hp | hp
        · obtain ⟨g', d, rfl⟩ : ∃ g' d, g = g' ++ [d] := ⟨_, _, (List.dropLast_concat_getLast hp).symm⟩
          have := hg d (by simp)
          simp only [List.reverse_append, List.reverse_singleton, List.singleton_append, List.cons_append, List.head?_cons]
          intro e; cases e; revert this; decide
        · cases hgr : g.reverse with
          | nil => exact hp
          | cons d t =>
            have := hg d (by rw [← List.mem_reverse, hgr]; simp)
            simp only [List.cons_append, List.head?_cons]
            intro e; cases e; revert this; decide
      · simp only [List.length_append]
        have : n.text.length ≠ 0 := by rw [hc]; simp
        rw [if_pos (by omega), show mn - 1 = 0 by omega]
        simpa using hk
  induction h with
  | one =>
    intro mn g pre rest caps k x hn hmn hg hp hr hend hk
    refine step _ mn g pre rest caps k x (hn _ (by simp)) hmn hg hp hr ?_
    rw [run_rep_greedy, if_neg (by simp), hend]
    simpa using hk
  | @cons n g' s ns hg' hne _ ih =>
    intro mn g pre rest caps k x hn hmn hg hp hr hend hk
    have e : g ++ (n.text ++ (g' ++ s) ++ rest) = g ++ (n.text ++ (g' ++ (s ++ rest))) := by simp
    rw [e]
    refine step n mn g pre _ caps k x (hn _ (by simp)) hmn hg hp (endsNumber_of_space ?_) ?_
    · intro c hc
      cases g' with
      | nil => exact absurd rfl hne
      | cons d g' => cases hc; exact hg' _ (by simp)
    · refine ih 0 g' _ rest caps k x (fun m hm => hn m (by simp [hm])) (by omega) hg' (.inl hne) hr hend ?_
      simpa using hk

theorem has_vis (c : Nat) : visS.has c = !isSpace c := by simp [CSet.has, CItem.has]

theorem run_end (pre : Str) (caps) (k : St → Option β) :
    run (.seq (star sp) .eol) ⟨pre, [], caps⟩ k = k ⟨pre, [], caps⟩ := by
  rw [run_seq, run_star_stop _ _ _ _ _ _ _ (by intro c hc; cases hc), run_eol]
  rfl

/-- A row of numbers. -/
theorem value_numbers {v : Str} {ns : List Numeral} (h : NumberRow v ns) (hn : ∀ n ∈ ns, n.Valid) (pre : Str)
    (hp : pre.head? ≠ some 46) (caps) (k : St → Option β) (x : β)
    (hk : k ⟨v.reverse ++ pre, [], (2, v) :: caps⟩ = some x) : run valueRe ⟨pre, v, caps⟩ k = some x := by
  rw [valueRe, run_seq, run_alt]
  have : run (.group 2 (.rep true 1 none (.seq (star sp) N))) ⟨pre, v, caps⟩ (fun t =>
      run (.seq (.cond 2 (.rep true 0 (some 1) (.group 4 (.seq (.set sp) (plus visS)))) .eps) (.seq (star sp) .eol)) t k) = some x := by
    rw [run_group]
    have e : v = [] ++ (v ++ []) := by simp
    have := run_nums h 1 [] pre [] caps (fun t => (fun t =>
      run (.seq (.cond 2 (.rep true 0 (some 1) (.group 4 (.seq (.set sp) (plus visS)))) .eps) (.seq (star sp) .eol)) t k)
        ⟨t.pre, t.post, (2, St.upTo ⟨pre, v, caps⟩ t) :: t.caps⟩) x hn (le_refl 1) (by intro c hc; cases hc) (.inr hp) .nil
      (fun _ _ _ => run_gapN_none _ _ _ _ (.inl rfl)) ?_
    · rw [← e] at this; exact this
    · dsimp only
      have hu : St.upTo ⟨pre, v, caps⟩ ⟨([] ++ v).reverse ++ pre, [], caps⟩ = v := by
        simp [St.upTo]
      rw [hu, run_seq, run_cond, if_pos (by simp [St.cap])]
      rw [run_rep_greedy, if_neg (by simp), run_group, run_seq, run_set_stops _ (by intro c hc; cases hc)]
      simp only [Option.none_or, if_true]
      rw [run_end]
      simpa using hk
  rw [this]; rfl

/-- A row of numbers with a unit. -/
theorem value_unit {v u : Str} {c : Nat} {ns : List Numeral} (h : NumberRow v ns) (hn : ∀ n ∈ ns, n.Valid) (hc : isSpace c = true)
    (hu : UnitText u) (pre : Str) (hp : pre.head? ≠ some 46) (caps) (k : St → Option β) (x : β)
    (hk : k ⟨(v ++ c :: u).reverse ++ pre, [], (4, c :: u) :: (2, v) :: caps⟩ = some x) :
    run valueRe ⟨pre, v ++ c :: u, caps⟩ k = some x := by
  obtain ⟨hu0, hus, huh⟩ := hu
  rw [valueRe, run_seq, run_alt]
  have : run (.group 2 (.rep true 1 none (.seq (star sp) N))) ⟨pre, v ++ c :: u, caps⟩ (fun t =>
      run (.seq (.cond 2 (.rep true 0 (some 1) (.group 4 (.seq (.set sp) (plus visS)))) .eps) (.seq (star sp) .eol)) t k) = some x := by
    rw [run_group]
    have := run_nums h 1 [] pre (c :: u) caps (fun t => (fun t =>
      run (.seq (.cond 2 (.rep true 0 (some 1) (.group 4 (.seq (.set sp) (plus visS)))) .eps) (.seq (star sp) .eol)) t k)
        ⟨t.pre, t.post, (2, St.upTo ⟨pre, v ++ c :: u, caps⟩ t) :: t.caps⟩) x hn (le_refl 1) (by intro c hc; cases hc) (.inr hp)
      (.space hc) (fun _ _ _ => run_gapN_none _ _ _ _ (.inr ?_)) ?_
    · exact this
    · cases u with
      | nil => exact absurd rfl hu0
      | cons d u =>
        refine ⟨[c], d, u, rfl, by intro y hy; rw [List.mem_singleton.1 hy]; exact hc, hus d (by simp), ?_⟩
        obtain ⟨h1, h2⟩ := huh d rfl
        rintro (h | h)
        · exact h1 ((isDigit_iff d).1 h)
        · simp at h2; omega
    · dsimp only
      have hu' : St.upTo ⟨pre, v ++ c :: u, caps⟩ ⟨([] ++ v).reverse ++ pre, c :: u, caps⟩ = v := by
        simp [St.upTo]
      rw [hu', run_seq, run_cond, if_pos (by simp [St.cap])]
      rw [run_rep_greedy, if_neg (by simp), run_group, run_seq, run_set_cons, if_pos (by rw [has_sp]; exact hc)]
      have hpa := run_plus_all (β := β) visS 1 u (c :: (([] ++ v).reverse ++ pre)) [] none ((2, v) :: caps)
      rw [List.append_nil] at hpa
      rw [hpa _ x (by cases u with | nil => exact absurd rfl hu0 | cons d u => simp)
        (fun y hy => by rw [has_vis, hus y hy]; rfl) (by intro y hy; cases hy) (by simp)]
      · rfl
      · dsimp only
        rw [if_pos (by simp), run_rep_greedy]
        simp only [Option.map_some, if_true, Option.none_or, Nat.sub_self]
        rw [run_end]
        have hu2 : St.upTo ⟨([] ++ v).reverse ++ pre, c :: u, (2, v) :: caps⟩
          ⟨u.reverse ++ (c :: (([] ++ v).reverse ++ pre)), [], (2, v) :: caps⟩ = c :: u := by simp [St.upTo]
        rw [hu2]
        simpa using hk
  rw [this]; rfl

/-! ### Texts -/

/-- `(?:\s*\S+)*` reads a text without blanks at its end in full. -/
theorem run_words : ∀ (n : Nat) (t pre : Str) (caps) (k : St → Option β) (x : β), t.length ≤ n →
    (∀ c, t.getLast? = some c → isSpace c = false) → k ⟨t.reverse ++ pre, [], caps⟩ = some x →
    run (.rep true 0 none (.seq (star sp) (plus visS))) ⟨pre, t, caps⟩ k = some x
  | n, [], pre, caps, k, x, _, _, hk => by
    rw [run_rep_greedy, if_neg (by simp), run_seq, run_star_stop _ _ _ _ _ _ _ (by intro c hc; cases hc),
      run_plus_stop _ _ _ _ _ _ _ _ (by intro c hc; cases hc)]
    simpa using hk
  | 0, _ :: _, _, _, _, _, h, _, _ => by simp at h
  | n + 1, d :: t, pre, caps, k, x, hlen, hlast, hk => by
    generalize hT : d :: t = T at *
    have hT0 : T ≠ [] := by rw [← hT]; simp
    have e1 : T = T.takeWhile isSpace ++ T.dropWhile isSpace := (List.takeWhile_append_dropWhile).symm
    have e2 : T.dropWhile isSpace = (T.dropWhile isSpace).takeWhile (fun c => !isSpace c) ++
      (T.dropWhile isSpace).dropWhile (fun c => !isSpace c) := (List.takeWhile_append_dropWhile).symm
    have hg : ∀ c ∈ T.takeWhile isSpace, isSpace c = true := fun c hc => List.all_eq_true.1 List.all_takeWhile c hc
    have hv : ∀ c ∈ (T.dropWhile isSpace).takeWhile (fun c => !isSpace c), (!isSpace c) = true :=
      fun c hc => List.all_eq_true.1 List.all_takeWhile c hc
    have hdh : ∀ c, (T.dropWhile isSpace).head? = some c → isSpace c = false := by
      intro c hc
      have := List.head?_dropWhile_not isSpace T
      rw [hc] at this
      simpa using this
    have hdh2 : ∀ c, ((T.dropWhile isSpace).dropWhile (fun c => !isSpace c)).head? = some c → isSpace c = true := by
      intro c hc
      have := List.head?_dropWhile_not (fun c => !isSpace c) (T.dropWhile isSpace)
      rw [hc] at this
      simpa using this
    generalize T.takeWhile isSpace = g at *
    generalize T.dropWhile isSpace = r at *
    generalize r.takeWhile (fun c => !isSpace c) = w at *
    generalize r.dropWhile (fun c => !isSpace c) = t' at *
    have hr0 : r ≠ [] := by
      rintro rfl
      rw [List.append_nil] at e1
      subst e1
      have := hlast (T.getLast hT0) (List.getLast?_eq_some_getLast hT0)
      rw [hg _ (List.getLast_mem hT0)] at this
      cases this
    have hw0 : w ≠ [] := by
      rintro rfl
      rw [List.nil_append] at e2
      subst e2
      cases r with
      | nil => exact hr0 rfl
      | cons c r => have h1 := hdh c rfl; rw [hdh2 c rfl] at h1; cases h1
    have hwl : w.length ≠ 0 := by simpa using hw0
    subst e2
    subst e1
    rw [run_rep_greedy, if_neg (by simp), run_seq]
    rw [run_star_all sp g pre (w ++ t') none caps _ x (fun y hy => by rw [has_sp]; exact hg y hy)
      (by intro y hy; rw [has_sp]; exact hdh y hy) (by simp)]
    · rfl
    · refine run_plus_all visS 1 w _ t' none caps _ x (by omega) (fun y hy => by rw [has_vis]; exact hv y hy)
        (by intro y hy; rw [has_vis, hdh2 y hy]; rfl) (by simp) ?_
      simp only [List.length_append]
      rw [if_pos (by omega)]
      refine run_words n t' _ caps k x (by simp at hlen; omega) ?_ ?_
      · intro c hc
        apply hlast c
        rw [List.getLast?_append, List.getLast?_append, hc]; rfl
      · simpa using hk

/-- A text. -/
theorem value_text {v : Str} (h : PlainText v) (pre : Str) (caps : List (Nat × Str)) (hc : ∀ p ∈ caps, p.1 ≠ 2)
    (k : St → Option β) (x : β)
    (hk : k ⟨v.reverse ++ pre, [], (3, v) :: caps⟩ = some x) : run valueRe ⟨pre, v, caps⟩ k = some x := by
  obtain ⟨h0, hh, hl⟩ := h
  cases v with
  | nil => exact absurd rfl h0
  | cons c v =>
    obtain ⟨hd, hm, hs⟩ := hh c rfl
    have hnum : ¬ numChar c := by
      rintro (h | h)
      · exact hd ((isDigit_iff c).1 h)
      · simp at hm; omega
    have hfirst : firstS.has c = true := by
      have : isDigit c = false := by
        rw [Bool.eq_false_iff]; intro h; exact hd ((isDigit_iff c).1 h)
      simp only [CSet.has, List.any_cons, List.any_nil, CItem.has, this, hs]
      simp at hm
      simp; omega
    rw [valueRe, run_seq, run_alt]
    rw [show run (.group 2 (.rep true 1 none (.seq (star sp) N))) ⟨pre, c :: v, caps⟩ _ = none from ?_, Option.none_or]
    · rw [run_group, run_seq, run_set_cons, if_pos hfirst]
      refine run_words v.length v _ caps _ x (le_refl _) ?_ ?_
      · intro d hd
        apply hl d
        rw [List.getLast?_cons, hd]; rfl
      · have hu : St.upTo ⟨pre, c :: v, caps⟩ ⟨v.reverse ++ c :: pre, [], caps⟩ = c :: v := by simp [St.upTo]
        simp only [hu]
        rw [run_seq, run_cond, if_neg, run_eps, run_end]
        · simpa using hk
        · simp only [St.cap, Bool.not_eq_true, Option.isSome_eq_false_iff, Option.isNone_iff_eq_none, Option.map_eq_none_iff,
            List.find?_eq_none]
          intro p hp
          rcases List.mem_cons.1 hp with rfl | hp
          · simp
          · simpa using hc p hp
    · have hno : ∀ k : St → Option β, run (.seq (star sp) N) ⟨pre, c :: v, caps⟩ k = none := fun k =>
        run_gapN_none _ _ _ _ (.inr ⟨[], c, v, rfl, (fun y hy => by cases hy), hs, hnum⟩)
      rw [run_group, run_rep_greedy, if_neg (by simp), hno]
      rfl

/-! ### Lines -/

theorem keyword_keyC {k : Str} (h : Keyword k) : ∀ c ∈ k, keyC c = true := by
  intro c hc
  have := h.2 c hc
  simpa [keyC] using this

theorem separator_facts {s : Str} (h : Separator s) : s ≠ [] ∧ (∀ c ∈ s, keepC c = true ∧ keyC c = false ∧ c ≠ 46) := by
  obtain ⟨a, c, b, rfl, h1, h2⟩ := h
  refine ⟨by simp, ?_⟩
  intro d hd
  have : d = 32 ∨ d = 9 ∨ d = 58 ∨ d = 61 := by
    rcases List.mem_append.1 hd with hd | hd
    · rcases h1 d (by simp [hd]) with h | h <;> simp [h]
    · rcases List.mem_cons.1 hd with rfl | hd
      · exact h2
      · rcases h1 d (by simp [hd]) with h | h <;> simp [h]
  rcases this with rfl | rfl | rfl | rfl <;> decide

/-- What the line comes down to. -/
theorem setting_file {line key value : Str} (h : SettingLine line key value) (hv : Starts value) (h0 : value ≠ [])
    (hl : ∀ c, value.getLast? = some c → isSpace c = false) (C : List (Nat × Str))
    (hC : ∀ (β : Type) (pre : Str) (k : St → Option β) (x : β), pre.head? ≠ some 46 → (∀ t : St, t.caps = C → k t = some x) →
      run valueRe ⟨pre, value, [(1, key)]⟩ k = some x) :
    parse_cell_param_file [line] =
      (settingOf ⟨[], [], [], C, paramNames, 0⟩).map fun kv => .list [.dict [(.str kv.1, kv.2)]] := by
  obtain ⟨g, sep, b, com, rfl, hg, hkey, hsep, hb, hcom, hval⟩ := h
  have hkc := keyword_keyC hkey
  obtain ⟨hs0, hsf⟩ := separator_facts hsep
  -- the line without its comment
  have ht : (g ++ (key ++ (sep ++ (value ++ (b ++ com))))).takeWhile keepC = g ++ (key ++ (sep ++ (value ++ b))) := by
    have hpos : ∀ (a b : Str), (∀ c ∈ a, keepC c = true) → (a ++ b).takeWhile keepC = a ++ b.takeWhile keepC := by
      intro a b
      induction a with
      | nil => intro _; rfl
      | cons c a ih =>
        intro h
        rw [List.cons_append, List.takeWhile_cons, if_pos (h c (by simp)), ih fun x hx => h x (by simp [hx])]
        rfl
    have hc0 : com.takeWhile keepC = [] := by
      cases com with
      | nil => rfl
      | cons c com =>
        rw [List.takeWhile_cons, if_neg]
        rcases hcom c rfl with rfl | rfl <;> decide
    rw [hpos _ _ (blank_keepC hg), hpos, hpos _ _ fun c hc => (hsf c hc).1, hpos, hpos _ _ (blank_keepC hb), hc0, List.append_nil]
    · intro c hc
      have := hval c hc
      simp [keepC]; omega
    · intro c hc
      have := hkc c hc
      simp only [keyC, isAlpha, isUpper, isLower, Bool.or_eq_true, Bool.and_eq_true, decide_eq_true_eq, beq_iff_eq] at this
      simp [keepC]; omega
  have hno : ¬ OpensBlock (g ++ (key ++ (sep ++ (value ++ (b ++ com))))) := by
    rintro ⟨u, g', k, v, hu, e, hg', hk'⟩
    obtain rfl := hu.unique (uncommented_takeWhile _)
    rw [ht] at e
    cases key with
    | nil => exact hkey.1 rfl
    | cons c key =>
      cases k with
      | nil => simp [Str.lower] at hk'
      | cons d k =>
        have hd : lowerC d = 37 := by simpa [Str.lower] using (List.cons.inj hk').1
        have hc := hkc c (by simp)
        have h1 : (g ++ (c :: key ++ (sep ++ (value ++ b)))).dropWhile isSpace = c :: key ++ (sep ++ (value ++ b)) := by
          rw [List.dropWhile_append_of_pos (fun x hx => hg x hx), List.cons_append, List.dropWhile_cons,
            keyC_not_space hc]; rfl
        have h2 : (g' ++ (d :: k) ++ v).dropWhile isSpace = d :: k ++ v := by
          rw [List.append_assoc, List.dropWhile_append_of_pos (fun x hx => hg' x hx), List.cons_append, List.dropWhile_cons,
            isSpace_of_lower (c := d) (by rw [hd]; decide)]; rfl
        rw [e, h2] at h1
        obtain rfl : d = c := (List.cons.inj h1).1
        revert hd hc
        simp only [keyC, isAlpha, isUpper, isLower, lowerC, Bool.or_eq_true, Bool.and_eq_true, decide_eq_true_eq, beq_iff_eq]
        split <;> omega
  have hcl : clean (g ++ (key ++ (sep ++ (value ++ (b ++ com))))) = g ++ (key ++ (sep ++ value)) := by
    rw [clean, ht, rstrip_iff]
    refine ⟨⟨b, by simp, hb⟩, ?_⟩
    intro c hc
    apply hl c
    rw [← hc]
    obtain ⟨v', d, rfl⟩ : ∃ v' d, value = v' ++ [d] := ⟨_, _, (List.dropLast_concat_getLast h0).symm⟩
    simp [List.getLast?_append]
  rw [parse_segment (.line hno .nil), segment_line hno, hcl, parseSetting, settingWith_run, param_names,
    setting_run g key (sep ++ value) hg hkey.1 hkc]
  · rw [rest_run hsep hv _ _ _ (settingOf ⟨[], [], [], C, paramNames, 0⟩)]
    · cases settingOf ⟨[], [], [], C, paramNames, 0⟩ with
      | error e => rfl
      | ok kv => rfl
    · apply hC
      · obtain ⟨s', d, e⟩ : ∃ s' d, sep = s' ++ [d] := ⟨_, _, (List.dropLast_concat_getLast hs0).symm⟩
        have := (hsf d (by rw [e]; simp)).2.2
        rw [e]
        simpa using this
      · intro t ht'
        rw [ht']
  · intro c hc
    cases sep with
    | nil => exact absurd rfl hs0
    | cons d sep => cases hc; exact (hsf _ (by simp)).2.1

theorem strip_of_ends {s : Str} (h1 : ∀ c, s.head? = some c → isSpace c = false)
    (h2 : ∀ c, s.getLast? = some c → isSpace c = false) : Str.strip s = s := by
  have : Str.lstrip s = s := by
    cases s with
    | nil => rfl
    | cons c s => rw [Str.lstrip, List.dropWhile_cons, h1 c rfl]; rfl
  rw [Str.strip, this, rstrip_iff]
  exact ⟨⟨[], by simp, by intro c hc; cases hc⟩, h2⟩

theorem row_ends {v : Str} {ns : List Numeral} (h : NumberRow v ns) (hn : ∀ n ∈ ns, n.Valid) :
    v ≠ [] ∧ (∀ c, v.head? = some c → numChar c) ∧ ∀ c, v.getLast? = some c → isSpace c = false := by
  induction h with
  | @one n =>
    have hv := hn n (by simp)
    obtain ⟨c, r, e, hc⟩ := text_head n hv
    refine ⟨by rw [e]; simp, ?_, fun c hc => text_nospace n hv c (List.mem_of_getLast? hc)⟩
    intro d hd; rw [e] at hd; cases hd; exact hc
  | @cons n g s ns _ _ _ ih =>
    obtain ⟨i1, -, i3⟩ := ih fun m hm => hn m (by simp [hm])
    have hv := hn n (by simp)
    obtain ⟨c, r, e, hc⟩ := text_head n hv
    refine ⟨by rw [e]; simp, ?_, ?_⟩
    · intro d hd; rw [e] at hd; cases hd; exact hc
    · intro d hd
      apply i3 d
      rw [← hd]
      obtain ⟨v', d, rfl⟩ : ∃ v' d, s = v' ++ [d] := ⟨_, _, (List.dropLast_concat_getLast i1).symm⟩
      simp [List.getLast?_append]

theorem row_starts {v : Str} {ns : List Numeral} (h : NumberRow v ns) (hn : ∀ n ∈ ns, n.Valid) : Starts v := by
  intro c hc
  have := (row_ends h hn).2.1 c hc
  refine ⟨numChar_nospace this, ?_, ?_⟩ <;> (rintro rfl; revert this; simp [numChar, isDigit])

theorem lower_key {key : Str} (h : Keyword key) : Str.lower (Str.strip key) = Str.lower key := by
  rw [strip_of_ends]
  · intro c hc; exact keyC_not_space (keyword_keyC h c (List.mem_of_head? hc))
  · intro c hc; exact keyC_not_space (keyword_keyC h c (List.mem_of_getLast? hc))

/-- The conversion of a row of numbers. -/
def rowValue (v : Str) : PyM PyVal :=
  if c!" " ∈ v then to_type (determine_type v) (.list ((Str.split v).map .str)) else to_type (determine_type v) (.str v)

theorem numbers_file {line key v : Str} {ns : List Numeral} (h : SettingLine line key v) (hr : NumberRow v ns) (hn : ∀ n ∈ ns, n.Valid) :
    parse_cell_param_file [line] = (rowValue v).map fun x => .list [.dict [(.str (Str.lower key), x)]] := by
  obtain ⟨e1, e2, e3⟩ := row_ends hr hn
  rw [setting_file h (row_starts hr hn) e1 e3 [(2, v), (1, key)]]
  · obtain ⟨g, sep, b, com, -, -, hkey, -⟩ := h
    have hs : Str.strip v = v := strip_of_ends (fun c hc => numChar_nospace (e2 c hc)) e3
    show Except.map _ (do
      let x ← if c!" " ∈ Str.strip v then to_type (determine_type v) (.list ((Str.split v).map .str)) else to_type (determine_type v) (.str v)
      return (Str.lower (Str.strip key), x)) = _
    rw [hs, lower_key hkey]
    rw [rowValue]
    by_cases hb : c!" " ∈ v
    · rw [if_pos hb, if_pos hb]
      cases to_type (determine_type v) (.list ((Str.split v).map .str)) <;> rfl
    · rw [if_neg hb, if_neg hb]
      cases to_type (determine_type v) (.str v) <;> rfl
  · intro β pre k x hp hk
    exact value_numbers hr hn pre hp _ k x (hk _ rfl)

theorem unit_file {line key v u : Str} {c : Nat} {ns : List Numeral} (h : SettingLine line key (v ++ c :: u)) (hr : NumberRow v ns)
    (hn : ∀ n ∈ ns, n.Valid) (hc : isSpace c = true) (hu : UnitText u) :
    parse_cell_param_file [line] = (rowValue v).map fun x => .list [.dict [(.str (Str.lower key), .tuple [x, .str u])]] := by
  obtain ⟨e1, e2, e3⟩ := row_ends hr hn
  rw [setting_file h ?_ (by simp) ?_ [(4, c :: u), (2, v), (1, key)]]
  · obtain ⟨g, sep, b, com, -, -, hkey, -⟩ := h
    have hs : Str.strip v = v := strip_of_ends (fun c hc => numChar_nospace (e2 c hc)) e3
    have hsu : Str.strip (c :: u) = u := by
      have : Str.strip (c :: u) = Str.strip u := by
        rw [Str.strip, Str.strip, Str.lstrip, Str.lstrip, List.dropWhile_cons, hc]; rfl
      rw [this]
      exact strip_of_ends (fun d hd => hu.2.1 d (List.mem_of_head? hd)) (fun d hd => hu.2.1 d (List.mem_of_getLast? hd))
    show Except.map _ (do
      let x ← if c!" " ∈ Str.strip v then to_type (determine_type v) (.list ((Str.split v).map .str)) else to_type (determine_type v) (.str v)
      return (Str.lower (Str.strip key), PyVal.tuple [x, .str (Str.strip (c :: u))])) = _
    rw [hs, hsu, lower_key hkey]
    rw [rowValue]
    by_cases hb : c!" " ∈ v
    · rw [if_pos hb, if_pos hb]
      cases to_type (determine_type v) (.list ((Str.split v).map .str)) <;> rfl
    · rw [if_neg hb, if_neg hb]
      cases to_type (determine_type v) (.str v) <;> rfl
  · intro β pre k x hp hk
    exact value_unit hr hn hc hu pre hp _ k x (hk _ rfl)
  · intro d hd
    apply row_starts hr hn d
    cases v with
    | nil => exact absurd rfl e1
    | cons y v => exact hd
  · intro d hd
    apply hu.2.1 d
    obtain ⟨v', d', e⟩ : ∃ v' d', u = v' ++ [d'] := ⟨_, _, (List.dropLast_concat_getLast hu.1).symm⟩
    rw [e, ← List.cons_append, ← List.append_assoc, List.getLast?_concat] at hd
    rw [e]; cases hd; simp

theorem text_file {line key t : Str} (h : SettingLine line key t) (ht : PlainText t) :
    parse_cell_param_file [line] = (to_type (determine_type t) (.str t)).map fun x => .list [.dict [(.str (Str.lower key), x)]] := by
  rw [setting_file h ?_ ht.1 ht.2.2 [(3, t), (1, key)]]
  · obtain ⟨g, sep, b, com, -, -, hkey, -⟩ := h
    have hs : Str.strip t = t := strip_of_ends (fun c hc => (ht.2.1 c hc).2.2) ht.2.2
    show Except.map _ (do
      let x ← to_type (determine_type t) (.str (Str.strip t))
      return (Str.lower (Str.strip key), x)) = _
    rw [hs, lower_key hkey]
    cases to_type (determine_type t) (.str t) <;> rfl
  · intro β pre k x hp hk
    exact value_text ht pre _ (by intro p hp; rw [List.mem_singleton.1 hp]; simp) k x (hk _ rfl)
  · intro c hc
    obtain ⟨-, h2, h3⟩ := ht.2.1 c hc
    simp at h2
    exact ⟨h3, by omega, by omega⟩

end Cell
end Verif
