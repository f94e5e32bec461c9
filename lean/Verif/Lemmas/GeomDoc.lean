import Verif.Lemmas.Memory
import Verif.Lemmas.CastepDoc
import Verif.Lemmas.BandTable
/-
Titles and ends of what is said of a geometry optimisation in a `.castep` file.
-/
namespace Verif.Castep
open Verif Spec Re NumRe AtomRe

set_option maxRecDepth 4000

/-- The names of the minimisers. -/
abbrev minRe : Re := .alt (litRe (py"BFGS")) (.alt (litRe (py"LBFGS")) (.alt (litRe (py"FIRE")) (.alt (litRe (py"TPSD")) (.alt (litRe (py"DMD")) (litRe (py"DI"))))))
abbrev digits : Re := plus ⟨false, [.digit], false⟩
abbrev pm : CSet := ⟨false, [.ch 43, .ch 45], false⟩

theorem GEOM_TABLE_eq : GEOM_TABLE_RE.re = litThen (py"<--") (.seq (.rep true 0 (some 1) (.group 1 (litRe (py" min")))) (.seq (.set (ch 32)) (.seq minRe .eol))) := by decide +kernel
theorem GEOM_TABLE_END_eq : GEOM_TABLE_END_RE.re = .seq (.set (ch 43)) (.rep true 4 (some 5) (.seq (plus (ch 45)) (.set (ch 43)))) := by decide +kernel
theorem TRIAL_eq : TRIAL_RE.re = litThen (py"trial guess (lambda=") (.seq (star sp) (.seq (.group 1 EF) (.set (ch 41)))) := by decide +kernel
theorem ENTHALPY_eq : ENTHALPY_RE.re = .seq (.group 1 minRe) (litThen (py": finished iteration") (.seq (star sp) (.seq digits (.seq (star sp) (litRe (py"with enthalpy")))))) := by decide +kernel
theorem GEOM_eq : GEOM_RE.re = litThen (py"Starting ") (.seq minRe (litThen (py" iteration") (.seq (star sp) (.seq digits (.seq (star sp) (.rep true 3 (some 3) (.set (ch 46)))))))) := by decide +kernel
theorem GEOM_END_eq : GEOM_END_RE.re = .alt (.seq .bol (.seq (plus (ch 61)) .eol)) (.seq .bol (.seq (star sp) (litThen (py"Finished") (.seq (plus sp) (.seq minRe (.seq (star sp) .eol)))))) := by decide +kernel
theorem PLUSMINUS_eq : PLUSMINUS_RE.re = .seq .bol (.seq (star sp) (.seq (star sp) (.seq (plus pm) (.seq (star sp) (.seq (star sp) .eol))))) := by decide +kernel
theorem MEMORY_START_eq : MEMORY_START_RE.re = .seq .bol (.seq (star sp) (.seq (star sp) (.seq (plus pm) (.seq (star sp) (litThen (py"MEMORY AND SCRATCH") (.seq (plus ⟨false, [.word, .space], false⟩) (.seq (star sp) (.seq (plus pm) (.seq (star sp) (.seq (star sp) .eol)))))))))) := by decide +kernel

theorem ex_min {m post pre : Str} (h : m ∈ MINIMISERS) : minRe.Ex (pre, m ++ post) (m.reverse ++ pre, post) := by
  simp only [MINIMISERS, List.mem_cons, List.not_mem_nil, or_false] at h
  rcases h with rfl | rfl | rfl | rfl | rfl | rfl
  · exact .altL ex_litRe
  · exact .altR (.altL ex_litRe)
  · exact .altR (.altR (.altL ex_litRe))
  · exact .altR (.altR (.altR (.altL ex_litRe)))
  · exact .altR (.altR (.altR (.altR (.altL ex_litRe))))
  · exact .altR (.altR (.altR (.altR (.altR ex_litRe))))

theorem ex_sp {g post pre : Str} (hg : Blank g) : (star sp).Ex (pre, g ++ post) (g.reverse ++ pre, post) :=
  .star fun x hx => by simpa [CSet.has, CItem.has] using hg x hx

theorem ex_spEnd {g pre : Str} (hg : Blank g) : (star sp).Ex (pre, g) (g.reverse ++ pre, []) := by
  have := ex_sp (post := []) (pre := pre) hg
  rwa [List.append_nil] at this

/-- A number of repetitions. -/
theorem ex_reps {a : Re} {post : Str} : ∀ (ws : List Str), (∀ w ∈ ws, w ≠ [] ∧ ∀ pre post, Re.Ex a (pre, w ++ post) (w.reverse ++ pre, post)) →
    ∀ (mn : Nat) (mx : Option Nat) (pre : Str), mn ≤ ws.length → (∀ M, mx = some M → ws.length ≤ M) →
      Re.Ex (.rep true mn mx a) (pre, ws.flatten ++ post) (ws.flatten.reverse ++ pre, post) := by
  intro ws hw
  suffices h : ∀ (f mn : Nat) (mx : Option Nat) (pre : Str) (caps), ws.flatten.length ≤ f → mn ≤ ws.length → (∀ M, mx = some M → ws.length ≤ M) →
      ∃ caps', (⟨ws.flatten.reverse ++ pre, post, caps'⟩ : St) ∈ repM (m a) true f mn mx ⟨pre, ws.flatten ++ post, caps⟩ by
    intro mn mx pre h1 h2 caps
    obtain ⟨c, hc⟩ := h (mn + (ws.flatten ++ post).length) mn mx pre caps (by simp; omega) h1 h2
    exact ⟨c, by rw [m]; exact hc⟩
  induction ws with
  | nil =>
    intro f mn mx pre caps _ h1 _
    obtain rfl : mn = 0 := by simpa using h1
    refine ⟨caps, ?_⟩
    cases f with
    | zero => simp [repM]
    | succ f => rw [repM]; simp
  | cons w ws ih =>
    intro f mn mx pre caps hf h1 h2
    have hwn := (hw w (by simp)).1
    have hlen := List.length_pos_of_ne_nil hwn
    rw [List.flatten_cons, List.length_append] at hf
    obtain ⟨f, rfl⟩ : ∃ k, f = k + 1 := ⟨f - 1, by omega⟩
    have hne : mx ≠ some 0 := by intro h; have := h2 0 h; simp at this
    obtain ⟨c1, hc1⟩ := (hw w (by simp)).2 pre (ws.flatten ++ post) caps
    obtain ⟨c2, hc2⟩ := ih (fun w h => hw w (by simp [h])) f (mn - 1) (mx.map (· - 1)) (w.reverse ++ pre) c1 (by omega)
      (by simp at h1; omega) (by
        intro M hM
        cases mx with
        | none => simp at hM
        | some k => have := h2 k rfl; simp at this hM; omega)
    refine ⟨c2, ?_⟩
    rw [repM]
    simp only [if_neg hne, if_true]
    refine List.mem_append.2 (.inl (List.mem_flatMap.2 ⟨⟨w.reverse ++ pre, ws.flatten ++ post, c1⟩, ?_, ?_⟩))
    · rw [List.flatten_cons, List.append_assoc]; exact hc1
    · rw [if_pos (by simp; omega)]
      rw [List.flatten_cons, List.reverse_append, List.append_assoc]
      exact hc2

theorem ex_digits {d post pre : Str} (hd : ∀ c ∈ d, isDigit c = true) (hne : d ≠ []) : digits.Ex (pre, d ++ post) (d.reverse ++ pre, post) :=
  .plus (fun x hx => by simpa [CSet.has, CItem.has] using hd x hx) hne

theorem ex_pm {d post pre : Str} (hd : ∀ c ∈ d, c = c!"+" ∨ c = c!"-") (hne : d ≠ []) : (plus pm).Ex (pre, d ++ post) (d.reverse ++ pre, post) :=
  .plus (fun x hx => by simpa [CSet.has, CItem.has] using hd x hx) hne

theorem table_found {l : Str} (h : TableTitle l) : found GEOM_TABLE_RE l = true := by
  obtain ⟨a, o, m, e, rfl, ho, hm, he⟩ := h
  refine Pat.search_of_ex_at (q := (m.reverse ++ (c!" " :: (o.reverse ++ ((py"<--").reverse ++ a.reverse))), e)) ?_
  rw [GEOM_TABLE_eq]
  refine ex_lit (.seq (q := (o.reverse ++ ((py"<--").reverse ++ a.reverse), c!" " :: (m ++ e))) ?_ (.seq (.set (by decide)) (.seq (ex_min hm) (.eol he))))
  rcases ho with rfl | rfl
  · exact .optNone
  · exact .opt (.group ex_litRe) (by simp)

theorem iter_found {l : Str} (h : IterTitle l) : found GEOM_RE l = true := by
  obtain ⟨a, m, g, d, g', b, rfl, hm, hg, hg', hd, hd'⟩ := h
  refine Pat.search_of_ex_at (q := ((py"...").reverse ++ (g'.reverse ++ (d.reverse ++ (g.reverse ++ ((py" iteration").reverse ++ (m.reverse ++ ((py"Starting ").reverse ++ a.reverse)))))), b)) ?_
  rw [GEOM_eq]
  refine ex_lit (.seq (ex_min hm) (ex_lit (.seq (ex_sp hg) (.seq (ex_digits hd' hd) (.seq (ex_sp hg') ?_)))))
  exact .rep (by decide) (by decide) (by decide)

theorem enthalpy_found {l : Str} (h : EnthalpyLine l) : found ENTHALPY_RE l = true := by
  obtain ⟨a, m, g, d, g', b, rfl, hm, hg, hg', hd, hd'⟩ := h
  refine Pat.search_of_ex_at (q := ((py"with enthalpy").reverse ++ (g'.reverse ++ (d.reverse ++ (g.reverse ++ ((py": finished iteration").reverse ++ (m.reverse ++ a.reverse))))), b)) ?_
  rw [ENTHALPY_eq]
  exact .seq (.group (ex_min hm)) (ex_lit (.seq (ex_sp hg) (.seq (ex_digits hd' hd) (.seq (ex_sp hg') ex_litRe))))

theorem memory_found {l : Str} (h : MemTitle l) : found MEMORY_START_RE l = true := by
  obtain ⟨g, s, g1, w, s', g2, rfl, hg, hg1, hg2, hs, hw, hw'⟩ := h
  refine Pat.search_of_ex (q := (g2.reverse ++ (s'.reverse ++ (w.reverse ++ ((py"MEMORY AND SCRATCH").reverse ++ (g1.reverse ++ (s.reverse ++ (g.reverse ++ [])))))), [])) ?_
  rw [MEMORY_START_eq]
  refine .seq .bol (.seq (ex_sp hg) (.seq .none (.seq (ex_pm (hs s (by simp)).2 (hs s (by simp)).1) (.seq (ex_sp hg1) (ex_lit
    (.seq (.plus (fun x hx => by simpa [CSet.has, CItem.has] using hw' x hx) hw) (.seq .none (.seq (ex_pm (hs s' (by simp)).2 (hs s' (by simp)).1)
    (.seq (ex_spEnd hg2) (.seq .none (.eol (.inl rfl))))))))))))

theorem stops_memory : Stops1 MemEnd (fun l => ¬ MemEnd l) PLUSMINUS_RE := by
  have : ∀ l, found PLUSMINUS_RE l = true ↔ MemEnd l := by
    intro l
    constructor
    · intro h
      obtain ⟨w, hw, h⟩ := Pat.search_whole (by decide +kernel) (by decide +kernel) h
      rw [PLUSMINUS_eq] at hw
      obtain ⟨u0, _, rfl, rfl, u1, _, rfl, h1, u2, _, rfl, h2, u3, _, rfl, h3, u4, _, rfl, h4, u5, _, rfl, h5, rfl⟩ := hw
      obtain ⟨h6, h7, -⟩ := (lang_rep_set _ _ _ _ _).1 h3
      have hne : u3 ≠ [] := by rintro rfl; simp at h7
      have hbb : ∀ {a b : Str}, Blank a → Blank b → Blank (a ++ b) := fun ha hb c hc => (List.mem_append.1 hc).elim (ha c) (hb c)
      rcases h with rfl | rfl
      · exact ⟨u1 ++ u2, u3, u4 ++ u5, by simp, hbb (lang_blank h1) (lang_blank h2), hbb (lang_blank h4) (lang_blank h5), hne, fun c hc => by simpa [CSet.has, CItem.has] using h6 c hc⟩
      · exact ⟨u1 ++ u2, u3, (u4 ++ u5) ++ [10], by simp, hbb (lang_blank h1) (lang_blank h2), hbb (hbb (lang_blank h4) (lang_blank h5)) (by decide), hne, fun c hc => by simpa [CSet.has, CItem.has] using h6 c hc⟩
    · rintro ⟨g, s, g', rfl, hg, hg', hs, hc⟩
      refine Pat.search_of_ex (q := (g'.reverse ++ (s.reverse ++ (g.reverse ++ [])), [])) ?_
      rw [PLUSMINUS_eq]
      refine .seq .bol (.seq (ex_sp hg) (.seq .none (.seq (ex_pm hc hs) (.seq (ex_spEnd hg') (.seq .none (.eol (.inl rfl)))))))
  constructor
  · exact fun l h => (this l).2 h
  · intro l h
    cases hf : found PLUSMINUS_RE l with
    | false => rfl
    | true => exact absurd ((this l).1 hf) h

theorem stops_iter : Stops1 IterEnd IterPass GEOM_END_RE := by
  constructor
  · rintro l (⟨s, e, rfl, hs, hc, he⟩ | ⟨g, g', m, g'', rfl, hg, hg', hn, hm, hg''⟩)
    · refine Pat.search_of_ex (q := (s.reverse ++ [], e)) ?_
      rw [GEOM_END_eq]
      exact .altL (.seq .bol (.seq (.plus (fun x hx => by simp [CSet.has, CItem.has, hc x hx]) hs) (.eol he)))
    · refine Pat.search_of_ex (q := (g''.reverse ++ (m.reverse ++ (g'.reverse ++ ((py"Finished").reverse ++ (g.reverse ++ [])))), [])) ?_
      rw [GEOM_END_eq]
      refine .altR (.seq .bol (.seq (ex_sp hg) (ex_lit (.seq (.plus (fun x hx => by simpa [CSet.has, CItem.has] using hg' x hx) hn) (.seq (ex_min hm) (.seq (ex_spEnd hg'') (.eol (.inl rfl))))))))
  · intro l ⟨h1, h2⟩
    cases hf : found GEOM_END_RE l with
    | false => rfl
    | true =>
      exfalso
      obtain ⟨w, hw, h⟩ := Pat.search_whole (by decide +kernel) (by decide +kernel) hf
      rw [GEOM_END_eq] at hw
      rcases hw with ⟨u0, _, rfl, rfl, u1, _, rfl, hu, rfl⟩ | ⟨u0, _, rfl, rfl, u1, _, rfl, hu, hv⟩
      · obtain ⟨h3, h4⟩ := lang_run hu
        rcases h with rfl | rfl
        · exact h1 ⟨u1, [], by simp, h3, h4, .inl rfl⟩
        · exact h1 ⟨u1, [10], by simp, h3, h4, .inr rfl⟩
      · obtain ⟨t, rfl, -⟩ := lang_litThen hv
        rcases h with rfl | rfl
        · exact h2 ⟨u1, t, by simp⟩
        · exact h2 ⟨u1, t ++ [10], by simp⟩

theorem stops_table : Stops1 TableRule (fun l => ¬ Occurs (py"+-") l) GEOM_TABLE_END_RE := by
  constructor
  · rintro l ⟨a, d1, d2, d3, d4, b, rfl, hd⟩
    refine Pat.search_of_ex_at (q := (([d1, d2, d3, d4].map (· ++ [c!"+"])).flatten.reverse ++ (c!"+" :: a.reverse), b)) ?_
    rw [GEOM_TABLE_END_eq]
    have e : d1 ++ c!"+" :: (d2 ++ c!"+" :: (d3 ++ c!"+" :: (d4 ++ c!"+" :: b))) = ([d1, d2, d3, d4].map (· ++ [c!"+"])).flatten ++ b := by simp
    rw [e]
    refine .seq (.set (by decide)) (ex_reps _ (fun w hw => ?_) _ _ _ (by simp) (by simp))
    obtain ⟨d, hd', rfl⟩ := List.mem_map.1 hw
    refine ⟨by simp, fun pre post => ?_⟩
    rw [List.append_assoc, List.reverse_append]
    exact .seq (.plus (fun x hx => by simp [CSet.has, CItem.has, (hd d hd').2 x hx]) (hd d hd').1) (.set (by decide))
  · intro l h
    cases hf : found GEOM_TABLE_END_RE l with
    | false => rfl
    | true =>
      exfalso
      obtain ⟨m, hm⟩ := Option.isSome_iff_exists.1 hf
      obtain ⟨a, b, e, hl⟩ := search_found hm
      rw [GEOM_TABLE_END_eq] at hl
      obtain ⟨u, v, e1, ⟨c, hc, rfl⟩, ws, e2, hmin, hmax, hall⟩ := hl
      cases ws with
      | nil => simp at hmin
      | cons x ws =>
        obtain ⟨p, q, rfl, hp, -⟩ := hall x (by simp)
        obtain ⟨h3, h4⟩ := lang_run hp
        have hc : c = c!"+" := by rw [has_ch] at hc; simpa using hc
        obtain ⟨y, p, rfl⟩ := List.exists_cons_of_ne_nil h3
        obtain rfl := h4 y (by simp)
        refine h ⟨a, p ++ q ++ ws.flatten ++ b, ?_⟩
        rw [e, e1, e2, hc]
        simp

theorem run_EF (n : Numeral) (hn : n.Valid) (hi : ¬ n.IsInt) (pre rest : Str) (caps) (k : St → Option β) (x : β) (hp : pre.head? ≠ some 46) (hr : EndsNumber rest)
    (hk : k ⟨n.text.reverse ++ pre, rest, caps⟩ = some x) : run EF ⟨pre, n.text ++ rest, caps⟩ k = some x := by
  rw [EF, run_alt]
  cases he : n.exp with
  | some e => rw [run_E n hn (by simp [he]) pre rest caps k x hp hr.stops hk]; rfl
  | none =>
    rw [run_E_none n hn he _ _ _ _ hr, Option.none_or]
    obtain ⟨sg, ip, fr, ex⟩ := n
    obtain rfl : ex = none := he
    match fr with
    | none => exact absurd ⟨rfl, rfl⟩ hi
    | some fr =>
      have e : (Numeral.text ⟨sg, ip, some fr, none⟩) = Numeral.signText sg ++ ip ++ 46 :: fr := by
        simp [Numeral.text, Numeral.fracText, Numeral.expText]
      rw [e] at hk ⊢
      exact run_F sg ip fr pre rest caps k x hn.1 hn.2.1 hn.2.2.1 hr.stops hk

theorem trial_search {l : Str} {n : Numeral} (h : TrialLine l n) (hn : n.Valid) (hi : ¬ n.IsInt) : ∃ m, TRIAL_RE.search l = some m ∧ m.group 1 = some n.text := by
  obtain ⟨a, g, b, rfl, hg, ha⟩ := h
  have hG : Gets TRIAL_RE.re a.reverse (py"trial guess (lambda=" ++ (g ++ (n.text ++ c!")" :: b))) [] (· = [(1, n.text)]) := by
    rw [TRIAL_eq]
    refine Gets.lit _ _ (Gets.stars (blanks_sp hg) (BandTab.stops_num hn _) ?_)
    refine ⟨⟨c!")" :: (n.text.reverse ++ (g.reverse ++ ((py"trial guess (lambda=").reverse ++ a.reverse))), b, [(1, n.text)]⟩, ?_, rfl⟩
    rw [run_seq, run_group]
    refine run_EF n hn hi _ _ _ _ _ ?_ ?_ ?_
    · cases hr : g.reverse with
      | nil => simp
      | cons c q =>
        have := hg c (by rw [← List.mem_reverse, hr]; simp)
        rw [List.cons_append, List.head?_cons]
        rintro h
        cases h
        cases this
    · exact ⟨by simp; decide, by simp, by simp, by simp⟩
    · rw [upTo_append]
      rw [run_set_cons, if_pos (by decide)]
  have hno : ∀ x y w, a = x ++ y → y ≠ [] → Lang TRIAL_RE.re w → ¬ w <+: y ++ (py"trial guess (lambda=" ++ (g ++ (n.text ++ c!")" :: b))) := by
    intro x y w e hy hl hp
    rw [TRIAL_eq] at hl
    obtain ⟨t, rfl, -⟩ := lang_litThen hl
    have hylen := List.length_pos_of_ne_nil hy
    have h1 : py"trial guess (lambda=" <+: (y ++ py"trial guess (lambda") ++ (c!"=" :: (g ++ (n.text ++ c!")" :: b))) := by
      refine List.IsPrefix.trans ⟨t, rfl⟩ ?_
      rw [List.append_assoc]
      exact hp
    have h2 : py"trial guess (lambda=" <+: y ++ py"trial guess (lambda" :=
      List.prefix_of_prefix_length_le h1 (List.prefix_append _ _) (by rw [List.length_append]; simp; omega)
    obtain ⟨z, hz⟩ := h2
    exact ha ⟨x, z, by rw [e, List.append_assoc, ← hz, List.append_assoc]⟩
  obtain ⟨m, h1, h2, -⟩ := search_at (C := (· = [(1, n.text)])) hG hno
  refine ⟨m, by rw [← h1], ?_⟩
  show (m.caps.find? _).map _ = _
  rw [h2]; rfl

end Verif.Castep
