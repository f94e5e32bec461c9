import Verif.Lemmas.Pspot
import Verif.Lemmas.Exact
import Verif.Lemmas.AtomVec
/- Whole definitions of pseudopotentials. -/
namespace Verif.Cell.Pspot
open Verif Re NumRe AtomRe Spec Cell

/-! ### The numbers at the front -/

abbrev bar : Re := .set (ch 124)
abbrev nb (i : Nat) : Re := .seq (.group i N) bar
abbrev optC (c : Nat) : Re := .rep true 0 (some 1) (.set (ch c))
abbrev back : Re := .seq (.rep true 0 (some 1) (nb 4)) (.seq (.cond 4 (nb 5) .eps) (.seq (nb 6) (.seq (nb 7) (nb 8))))
abbrev INFO : Re := .seq .bol (.seq (optC 45) (.seq (.rep true 0 (some 1) (.seq (.rep false 1 none (.set sp)) (.seq (.group 1 N) (.set (ch 61)))))
  (.seq (optC 45) (.seq (.group 2 (plus dig)) (.seq (optC 45) (.seq bar (.seq (.group 3 N) (.seq bar back))))))))
abbrev NAMES : List (Str × Nat) :=
  [(py"local_energy", 1), (py"local_channel", 2), (py"core_radius", 3), (py"beta_radius", 4), (py"r_inner", 5), (py"coarse", 6), (py"medium", 7), (py"fine", 8)]
theorem INFO_eq : Res.PSPOT_INFO_RE = ⟨INFO, NAMES, 8⟩ := by decide +kernel

theorem cut_unique {c : Nat} {a b x y : Str} (ha : c ∉ a) (hb : c ∉ b) (h : a ++ c :: x = b ++ c :: y) : a = b := by
  have := congrArg (Str.splitC c) h
  rw [splitC_append c a x ha, splitC_append c b y hb] at this
  injection this

theorem text_no_bar {n : Numeral} (hn : n.Valid) : 124 ∉ n.text := fun h => by
  have := AtomVec.numeral_char n hn _ h
  omega

theorem N_mem {n : Numeral} (hn : n.Valid) {pre rest : Str} (caps : List (Nat × Str)) (hp : pre.head? ≠ some 46) (hr : EndsNumber rest) :
    (⟨n.text.reverse ++ pre, rest, caps⟩ : St) ∈ m N ⟨pre, n.text ++ rest, caps⟩ := by
  classical
  have := run_N n hn pre rest caps (fun t => if t = ⟨n.text.reverse ++ pre, rest, caps⟩ then some () else Option.none) () hp hr (if_pos rfl)
  rw [run] at this
  obtain ⟨l1, x, l2, e, hx, -⟩ := List.findSome?_eq_some_iff.1 this
  split at hx
  · rename_i h
    rw [e, ← h]; simp
  · cases hx

theorem ends_bar (rest : Str) : EndsNumber (124 :: rest) := by
  refine ⟨?_, by simp, by simp, by simp⟩
  intro c hc
  cases hc
  rfl

theorem run_nb {n : Numeral} (hn : n.Valid) (i : Nat) {pre : Str} (hp : pre.head? ≠ some 46) (rest : Str) (caps : List (Nat × Str)) (k : St → Option β) :
    run (nb i) ⟨pre, n.text ++ 124 :: rest, caps⟩ k = k ⟨124 :: (n.text.reverse ++ pre), rest, (i, n.text) :: caps⟩ := by
  rw [run_seq]
  refine run_exact (by decide) (N_mem hn caps hp (ends_bar rest)) ?_ k
  intro u v hu e
  obtain ⟨n', hn', rfl⟩ := lang_N hu
  exact (cut_unique (text_no_bar hn) (text_no_bar hn') e).symm

theorem run_nb_none (i : Nat) {pre s : Str} (hs : 124 ∉ s) (caps : List (Nat × Str)) (k : St → Option β) : run (nb i) ⟨pre, s, caps⟩ k = Option.none := by
  refine run_none fun w t hst hl => ?_
  exfalso
  obtain ⟨u, v, rfl, -, c, hc, rfl⟩ := hl
  rw [has_ch] at hc
  obtain rfl : c = 124 := by simpa using hc
  have := hst.post
  dsimp only at this
  exact hs (by rw [this]; simp)

/-- The captures of the numbers. -/
def infoCaps (p : PspotDef) : List (Nat × Str) :=
  (8, p.fine.text) :: (7, p.medium.text) :: (6, p.coarse.text) :: ((p.radii.toList.flatMap fun q => [(5, q.2.text), (4, q.1.text)]) ++ [(3, p.core.text), (2, p.channel.text)])

theorem run_back {p : PspotDef} (hp : p.Ok) {tail pre : Str} (ht : 124 ∉ tail) (hpre : pre.head? ≠ some 46) {cp : List (Nat × Str)} (hcp : cp.find? (·.1 = 4) = Option.none) :
    ∃ t, run back ⟨pre, PspotDef.radiiText p.radii ++ (p.coarse.text ++ 124 :: (p.medium.text ++ 124 :: (p.fine.text ++ 124 :: tail))), cp⟩ some = some t ∧ t.post = tail ∧
      t.caps = (8, p.fine.text) :: (7, p.medium.text) :: (6, p.coarse.text) :: ((p.radii.toList.flatMap fun q => [(5, q.2.text), (4, q.1.text)]) ++ cp) := by
  obtain ⟨-, -, hra, hco, hme, hfi, -⟩ := hp
  have step : ∀ {n : Numeral}, n.Valid → ∀ (i : Nat) (pre rest : Str) (caps : List (Nat × Str)) (k : St → Option St), pre.head? ≠ some 46 →
      run (nb i) ⟨pre, n.text ++ 124 :: rest, caps⟩ k = k ⟨124 :: (n.text.reverse ++ pre), rest, (i, n.text) :: caps⟩ :=
    fun hn i pre rest caps k h => run_nb hn i h rest caps k
  have h124 : ∀ l : Str, (124 :: l).head? ≠ some 46 := by intro l; simp
  cases hr : p.radii with
  | none =>
    rw [PspotDef.radiiText, List.nil_append, run_seq, run_rep_greedy, if_neg (by simp), if_pos rfl, step hco.1 _ _ _ _ _ hpre]
    dsimp only
    rw [if_pos (by simp only [List.length_append, List.length_cons]; omega), run_rep_greedy, if_pos (by rfl), if_pos (by rfl), Option.none_or, run_seq, run_cond, if_pos (by simp [St.cap]),
      step hme.1 _ _ _ _ _ (h124 _), run_seq, step hfi.1 _ _ _ _ _ (h124 _), run_seq, run_nb_none _ ht, Option.none_or]
    rw [run_seq, run_cond, if_neg (by simp [St.cap, hcp]), run_eps, run_seq, step hco.1 _ _ _ _ _ hpre, run_seq, step hme.1 _ _ _ _ _ (h124 _), step hfi.1 _ _ _ _ _ (h124 _)]
    exact ⟨_, rfl, rfl, rfl⟩
  | some q =>
    obtain ⟨b, r⟩ := q
    obtain ⟨hb, hri⟩ := hra _ hr
    have e : PspotDef.radiiText (some (b, r)) ++ (p.coarse.text ++ 124 :: (p.medium.text ++ 124 :: (p.fine.text ++ 124 :: tail)))
        = b.text ++ 124 :: (r.text ++ 124 :: (p.coarse.text ++ 124 :: (p.medium.text ++ 124 :: (p.fine.text ++ 124 :: tail)))) := by simp [PspotDef.radiiText]
    rw [e, run_seq, run_rep_greedy, if_neg (by simp), if_pos rfl, step hb.1 _ _ _ _ _ hpre]
    dsimp only
    rw [if_pos (by simp only [List.length_append, List.length_cons]; omega), run_rep_greedy, if_pos (by rfl), if_pos (by rfl), Option.none_or, run_seq, run_cond, if_pos (by simp [St.cap]),
      step hri.1 _ _ _ _ _ (h124 _), run_seq, step hco.1 _ _ _ _ _ (h124 _), run_seq, step hme.1 _ _ _ _ _ (h124 _), step hfi.1 _ _ _ _ _ (h124 _), Option.some_or]
    exact ⟨_, rfl, rfl, rfl⟩

/-- The text of the definition without its marks. -/
def body (p : PspotDef) (tail : Str) : Str :=
  124 :: (p.core.text ++ 124 :: (PspotDef.radiiText p.radii ++ (p.coarse.text ++ 124 :: (p.medium.text ++ 124 :: (p.fine.text ++ 124 :: tail)))))

theorem channel_digits {n : Numeral} (hn : n.Unsigned) (hf : n.frac = Option.none) : n.text ≠ [] ∧ ∀ c ∈ n.text, isDigit c = true := by
  obtain ⟨⟨h1, h2, h3, -⟩, -, h4, h5⟩ := hn
  obtain ⟨sg, ip, fr, ex⟩ := n
  dsimp only at h1 h2 h3 h4 h5 hf
  subst h4 h5 hf
  have e : Numeral.text ⟨Option.none, ip, Option.none, Option.none⟩ = ip := by simp [Numeral.text, Numeral.signText, Numeral.fracText, Numeral.expText]
  rw [e]
  exact ⟨by simpa using h3, fun c hc => (isDigit_iff c).2 (h1 c hc)⟩

theorem info_match {p : PspotDef} (hp : p.Ok) {tail : Str} (ht : 124 ∉ tail) :
    ∃ w, Res.PSPOT_INFO_RE.match_ (p.channel.text ++ body p tail) = some ⟨[], w, tail, infoCaps p, NAMES, 8⟩ := by
  obtain ⟨hne, hd⟩ := channel_digits hp.1.1 hp.1.2
  obtain ⟨t, e1, e2, e3⟩ := run_back hp ht (pre := 124 :: (p.core.text.reverse ++ 124 :: (p.channel.text.reverse ++ []))) (by simp)
    (cp := [(3, p.core.text), (2, p.channel.text)]) (by simp)
  have hrun : run INFO ⟨[], p.channel.text ++ body p tail, []⟩ some = some t := by
    obtain ⟨d, ds, ed⟩ := List.exists_cons_of_ne_nil hne
    have hd0 : isDigit d = true := hd d (by rw [ed]; simp)
    have hx : ∀ c, c ≠ d → Stops (ch c) (p.channel.text ++ body p tail) := by
      intro c hc x hx
      rw [ed] at hx
      cases hx
      rw [has_ch]
      simpa using fun h : d = c => hc h.symm
    have hsp : Stops sp (p.channel.text ++ body p tail) := by
      intro x hx
      rw [ed] at hx
      cases hx
      rw [has_sp]
      exact isDigit_not_space hd0
    have h45 : (45 : Nat) ≠ d := by rintro rfl; revert hd0; decide
    rw [run_seq, run_bol, if_pos (by rfl), run_seq, run_opt_none fun k' => run_set_stops k' (hx 45 h45), run_seq, run_opt_none fun k' => by
      rw [run_seq]; exact run_plus_stop _ _ _ _ _ _ _ _ hsp]
    rw [run_seq, run_opt_none fun k' => run_set_stops k' (hx 45 h45), run_seq, run_group]
    refine run_plus_all dig 1 p.channel.text [] (body p tail) Option.none _ _ _ (List.length_pos_iff.2 hne) (fun c hc => by rw [has_dig]; exact hd c hc)
      (by intro c hc; cases hc; rfl) (by simp) ?_
    rw [run_seq, body, run_opt_none fun k' => run_set_stops k' (by intro c hc; cases hc; rfl), run_seq, run_set_cons, if_pos (by decide), run_seq]
    have := run_nb hp.2.1.1 3 (pre := 124 :: (p.channel.text.reverse ++ [])) (by simp)
      (PspotDef.radiiText p.radii ++ (p.coarse.text ++ 124 :: (p.medium.text ++ 124 :: (p.fine.text ++ 124 :: tail)))) [(2, p.channel.text)] (fun t => run back t some)
    rw [run_seq] at this
    simp only [run_seq] at this e1 ⊢
    rw [← e1, ← this]
    simp [St.upTo]
  rw [Pat.match_, Pat.matchAt_eq, INFO_eq]
  rw [hrun, Option.map_some, e2, e3]
  exact ⟨_, rfl⟩

/-! ### The polynomial fit -/

abbrev notBar : CSet := ⟨true, [.ch 124], false⟩
abbrev POLY : Re := .seq .bol (.seq (.group 1 (star notBar)) (.seq (.set (ch 45)) (.seq (.group 2 (star notBar)) bar)))
theorem POLY_eq : rx (py r"^([^|]*)-([^|]*)\|") = ⟨POLY, [], 2⟩ := by decide +kernel

theorem has_notBar (c : Nat) : notBar.has c = !(c == 124) := by simp [CSet.has, CItem.has]

theorem lang_notBar (w : Str) : Lang (star notBar) w ↔ 124 ∉ w := by
  rw [lang_rep_set]
  constructor
  · rintro ⟨h, -⟩ hm
    have := h _ hm
    revert this; decide
  · intro h
    refine ⟨fun c hc => ?_, by simp, by simp⟩
    rw [has_notBar]
    have : c ≠ 124 := by rintro rfl; exact h hc
    simp [this]

theorem dropPolyfit_none {a R : Str} (h1 : 124 ∉ a) (h2 : 45 ∉ a) : dropPolyfit (a ++ 124 :: R) = a ++ 124 :: R := by
  unfold dropPolyfit
  rw [POLY_eq]
  have : (⟨POLY, [], 2⟩ : Pat).match_ (a ++ 124 :: R) = Option.none := by
    cases hm : (⟨POLY, [], 2⟩ : Pat).match_ (a ++ 124 :: R) with
    | none => rfl
    | some x =>
      exfalso
      obtain ⟨b, e, hl⟩ := match_found hm
      obtain ⟨u0, v0, e0, rfl, u1, v1, rfl, hu1, u2, v2, rfl, ⟨c, hc, rfl⟩, u3, v3, rfl, hu3, d, hd, rfl⟩ := hl
      rw [has_ch] at hc hd
      obtain rfl : c = 45 := by simpa using hc
      obtain rfl : d = 124 := by simpa using hd
      have hu1' : 124 ∉ u1 := (lang_notBar u1).1 hu1
      have hu3' : 124 ∉ u3 := (lang_notBar u3).1 hu3
      rw [e0] at e
      have : a = u1 ++ 45 :: u3 := cut_unique h1 (by simp [hu1', hu3']) (x := R) (y := b) (by rw [e]; simp)
      exact h2 (by rw [this]; simp)
  rw [this]

theorem dropPolyfit_some {a b R : Str} (ha : 124 ∉ a) (ha' : 45 ∉ a) (hb : 124 ∉ b) (hb' : 45 ∉ b) : dropPolyfit (a ++ 45 :: (b ++ 124 :: R)) = a ++ (b ++ 124 :: R) := by
  unfold dropPolyfit
  rw [POLY_eq]
  have hrun : run POLY ⟨[], a ++ 45 :: (b ++ 124 :: R), []⟩ some = some ⟨124 :: (b.reverse ++ 45 :: (a.reverse ++ [])), R, [(2, b), (1, a)]⟩ := by
    rw [run_seq, run_bol, if_pos (by rfl), run_seq]
    simp only [run_seq]
    rw [run_exact (r := star notBar) (by decide) (mem_of_lang _ (by decide) a ((lang_notBar a).2 ha) _ _ _)]
    · exact run_exact (r := star notBar) (by decide) (mem_of_lang _ (by decide) b ((lang_notBar b).2 hb) _ _ _)
        (fun u v hu e => (cut_unique hb ((lang_notBar u).1 hu) e).symm) some
    · intro u v hu e
      have hu' := (lang_notBar u).1 hu
      by_cases h : 45 ∈ u
      · exfalso
        obtain ⟨x, y, rfl⟩ := List.append_of_mem h
        have : 45 ∉ x ∨ 45 ∈ x := by tauto
        -- the part before the bar has one minus
        have hc := congrArg (fun s => (Str.splitC 124 s).head?) e
        have e1 : a ++ 45 :: (b ++ 124 :: R) = (a ++ 45 :: b) ++ 124 :: R := by simp
        rw [e1, splitC_append 124 _ R (by simp [ha, hb]), List.head?_cons] at hc
        have e2 : ∀ z : Str, ∃ q, (Str.splitC 124 ((x ++ 45 :: y) ++ 45 :: z)).head? = some ((x ++ 45 :: y) ++ 45 :: q) := by
          intro z
          by_cases hz : 124 ∈ z
          · obtain ⟨z1, z2, ez, hz1⟩ : ∃ z1 z2, z = z1 ++ 124 :: z2 ∧ 124 ∉ z1 := by
              obtain ⟨z1, z2, h1, h2⟩ := List.eq_append_cons_of_mem hz
              exact ⟨z1, z2, h1, h2⟩
            refine ⟨z1, ?_⟩
            rw [ez, show (x ++ 45 :: y) ++ 45 :: (z1 ++ 124 :: z2) = ((x ++ 45 :: y) ++ 45 :: z1) ++ 124 :: z2 by simp, splitC_append 124 _ z2 (by simp at hu' ⊢; tauto)]
            rfl
          · refine ⟨z, ?_⟩
            rw [splitC_of_notMem 124 _ (by simp at hu' ⊢; tauto)]
            rfl
        obtain ⟨q, hq⟩ := e2 v
        rw [hq] at hc
        injection hc with hc
        have := congrArg (List.count 45) hc
        simp [List.count_append, List.count_eq_zero.2 ha', List.count_eq_zero.2 hb'] at this
        omega
      · exact (cut_unique ha' h e).symm
  rw [Pat.match_, Pat.matchAt_eq, hrun]
  simp [Match.group]

/-! ### Brackets -/

/-- No character of a match is the given one. -/
def avoids (c : Nat) : Re → Bool
  | .eps => true
  | .set cs => !cs.has c
  | .seq a b | .alt a b => avoids c a && avoids c b
  | .rep _ _ _ r => avoids c r
  | _ => false

theorem avoids_lang {c : Nat} : ∀ (r : Re), avoids c r = true → ∀ w, Lang r w → c ∉ w
  | .eps, _, w, hw => by
    obtain rfl : w = [] := hw
    simp
  | .set cs, h, w, hw => by
    obtain ⟨d, hd, rfl⟩ := hw
    intro hm
    obtain rfl : c = d := by simpa using hm
    simp [avoids, hd] at h
  | .seq a b, h, w, hw => by
    simp only [avoids, Bool.and_eq_true] at h
    obtain ⟨u, v, rfl, hu, hv⟩ := hw
    simp [avoids_lang a h.1 u hu, avoids_lang b h.2 v hv]
  | .alt a b, h, w, hw => by
    simp only [avoids, Bool.and_eq_true] at h
    exact hw.elim (avoids_lang a h.1 w) (avoids_lang b h.2 w)
  | .rep _ _ _ r, h, w, hw => by
    simp only [avoids] at h
    obtain ⟨ws, rfl, -, -, hu⟩ := hw
    simp only [List.mem_flatten, not_exists, not_and]
    exact fun u hm => avoids_lang r h u (hu u hm)

abbrev SH : Re := .seq (.set dig) (.seq (.set (cset [.ch 115, .ch 112, .ch 100, .ch 102])) (.seq (.rep true 0 (some 2) (.set dig)) (.rep true 0 (some 1) F)))
abbrev SHS : Re := .seq SH (.rep true 0 none (.seq (.set (ch 44)) SH))
abbrev brk (a b : Nat) (r : Re) : Re := .seq (.set (ch a)) (.seq (.group 1 r) (.set (ch b)))

theorem ADJ_eq : Res.PSPOT_ADJ_RE = ⟨brk 123 125 SHS, [], 1⟩ := by decide +kernel
theorem TEST_eq : Res.PSPOT_TEST_RE = ⟨brk 91 93 (.rep true 0 (some 1) SHS), [], 1⟩ := by decide +kernel
theorem FLAG_eq : Res.PSPOT_FLAG_RE = ⟨brk 40 41 (plus ⟨true, [.ch 41], false⟩), [], 1⟩ := by decide +kernel

theorem brk_search {a b : Nat} {r : Re} (hs : simple r = true) (hb : avoids b r = true) {A w B : Str} (hA : a ∉ A) (hw : Lang r w) :
    ∃ wh, (⟨brk a b r, [], 1⟩ : Pat).search (A ++ a :: (w ++ b :: B)) = some ⟨A, wh, B, [(1, w)], [], 1⟩ := by
  have hskip : ∀ u v, A = u ++ v → v ≠ [] → (⟨brk a b r, [], 1⟩ : Pat).matchAt (u.reverse ++ []) (v ++ a :: (w ++ b :: B)) = Option.none := by
    intro u v e hv
    obtain ⟨d, v, rfl⟩ := List.exists_cons_of_ne_nil hv
    have hd : d ≠ a := by rintro rfl; exact hA (by rw [e]; simp)
    rw [Pat.matchAt_eq, run_seq, List.cons_append, run_set_cons, if_neg (by rw [has_ch]; simpa using hd)]
    rfl
  rw [Pat.search, Pat.searchFrom_skip _ A [] _ hskip]
  have hm : ∃ wh, (⟨brk a b r, [], 1⟩ : Pat).matchAt (A.reverse ++ []) (a :: (w ++ b :: B)) = some ⟨A, wh, B, [(1, w)], [], 1⟩ := by
    rw [Pat.matchAt_eq, run_seq, run_set_cons, if_pos (by rw [has_ch]; simp), run_seq,
      run_exact (groups_simple r hs) (mem_of_lang r hs w hw _ _ _) (fun u v hu e => (cut_unique (avoids_lang r hb w hw) (avoids_lang r hb u hu) e).symm)]
    simp
  obtain ⟨wh, hm⟩ := hm
  refine ⟨wh, ?_⟩
  rw [Pat.searchFrom, hm]

theorem lang_F_of {n : Numeral} (hn : n.Valid) (he : n.exp = Option.none) (hf : n.frac.isSome = true) : Lang F n.text := by
  obtain ⟨sg, ip, fr, ex⟩ := n
  obtain ⟨h1, h2, h3, -⟩ := hn
  dsimp only at h1 h2 h3 he hf
  subst he
  obtain ⟨f, rfl⟩ := Option.isSome_iff_exists.1 hf
  have hd : ∀ c ∈ ip, dig.has c = true := fun c hc => by rw [has_dig]; exact (isDigit_iff c).2 (h1 c hc)
  have hd2 : ∀ c ∈ f, dig.has c = true := fun c hc => by rw [has_dig]; exact (isDigit_iff c).2 (h2 c hc)
  refine ⟨_, ip ++ 46 :: f, ?_, (lang_sign _).2 ⟨sg, rfl⟩, ?_⟩
  · simp [Numeral.text, Numeral.signText, Numeral.fracText, Numeral.expText]
  · by_cases hf0 : f = []
    · right
      refine ⟨ip, 46 :: f, rfl, (lang_rep_set _ _ _ _ _).2 ⟨hd, ?_, by simp⟩, [46], f, rfl, ⟨46, by decide, rfl⟩, (lang_rep_set _ _ _ _ _).2 ⟨hd2, by simp, by simp⟩⟩
      subst hf0
      rw [Nat.succ_le_iff, List.length_pos_iff]
      simpa using h3
    · left
      exact ⟨ip, 46 :: f, rfl, (lang_rep_set _ _ _ _ _).2 ⟨hd, by simp, by simp⟩, [46], f, rfl, ⟨46, by decide, rfl⟩,
        (lang_rep_set _ _ _ _ _).2 ⟨hd2, List.length_pos_iff.2 hf0, by simp⟩⟩

theorem lang_opt {r : Re} {w : Str} (h : w = [] ∨ Lang r w) : Lang (.rep true 0 (some 1) r) w := by
  rcases h with rfl | h
  · exact ⟨[], rfl, by simp, by simp, by simp⟩
  · exact ⟨[w], by simp, by simp, by simp, by simpa using h⟩

theorem lang_SH {s : Str} (h : ShellOcc s) : Lang SH s := by
  obtain ⟨d, l, occ, num, rfl, hd, hl, ho1, ho2, hn⟩ := h
  refine ⟨[d], _, rfl, ⟨d, by rw [has_dig]; exact (isDigit_iff d).2 hd, rfl⟩, [l], _, rfl, ⟨l, ?_, rfl⟩, occ, num, rfl, (lang_rep_set _ _ _ _ _).2 ⟨?_, by simp, ?_⟩, lang_opt ?_⟩
  · have hl' : l = 115 ∨ l = 112 ∨ l = 100 ∨ l = 102 := by simpa using hl
    rcases hl' with rfl | rfl | rfl | rfl <;> decide
  · intro c hc
    rw [has_dig]
    exact (isDigit_iff c).2 (ho2 c hc)
  · intro M hM
    cases hM
    exact ho1
  · rcases hn with rfl | ⟨n, rfl, h1, h2, h3⟩
    · exact .inl rfl
    · exact .inr (lang_F_of h1 h2 h3)

theorem lang_SHS : ∀ (l : List Str), l ≠ [] → (∀ s ∈ l, ShellOcc s) → Lang SHS (Str.join (py",") l) := by
  intro l hl h
  obtain ⟨s, l, rfl⟩ := List.exists_cons_of_ne_nil hl
  have : ∀ (l : List Str) (s : Str), Str.join (py",") (s :: l) = s ++ (l.map fun t => 44 :: t).flatten := by
    intro l
    induction l with
    | nil => intro s; simp [Str.join]
    | cons t l ih => intro s; rw [Str.join, ih]; simp
  rw [this]
  refine ⟨s, _, rfl, lang_SH (h s (by simp)), l.map fun t => 44 :: t, rfl, by simp, by simp, ?_⟩
  intro u hu
  obtain ⟨t, ht, rfl⟩ := List.mem_map.1 hu
  exact ⟨[44], t, rfl, ⟨44, by decide, rfl⟩, lang_SH (h t (by simp [ht]))⟩

end Verif.Cell.Pspot
