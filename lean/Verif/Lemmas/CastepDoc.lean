import Verif.Lemmas.Anchored
import Verif.Lemmas.AtomTables
import Verif.Lemmas.BandTable
import Verif.Lemmas.AtomVec
import Verif.Lemmas.StressTitle
import Verif.Lemmas.CastepRuns
import Verif.Spec.CastepDoc
/-
A `.castep` file as a whole.
-/
namespace Verif.Castep
open Verif Spec

/-- A condition is not met by lines without the phrases. -/
def Ignores (g : Str → List Str → PyM (Option Hit × List Str)) (t : Str × Bool × List Str) : Prop :=
  ∀ l rest, Without l t → g l rest = .ok (none, rest)

theorem without_plain {l : Str} {t : Str × Bool × List Str} (ht : t.1 ∉ BOXED) (h : Without l t) : ∀ w ∈ t.2.2, ¬ Occurs w (if t.2.1 then Str.lower l else l) :=
  h.elim id fun h => absurd h.1 ht

theorem fold_without {l : Str} {t : Str × Bool × List Str} (h : ∀ w ∈ t.2.2, ¬ Occurs w (if t.2.1 then Str.lower l else l)) : ∀ w ∈ t.2.2, ¬ Occurs w (foldS t.2.1 l) := by
  intro w hw
  have := h w hw
  cases ht : t.2.1 with
  | false =>
    rw [ht] at this
    have e : foldS false l = l := by rw [foldS]; exact List.map_id' l
    rw [e]; exact this
  | true =>
    rw [ht] at this
    have e : foldS true l = Str.lower l := by rw [foldS, Str.lower]; rfl
    rw [e]; exact this

theorem takeBlock_skip {s e : Pat} {n : Nat} {eof : Bool} {l : Str} {rest : List Str} (h : s.search l = none) : takeBlock s e n eof l rest = .ok (none, rest) := by
  rw [takeBlock, blockOf, Block.from_re, found, h]
  rfl

/-- The beginning of the pattern of a title between stars. -/
def Boxes (p : Pat) : Prop :=
  ∃ a b x, p.re = .seq .bol (.seq (.rep true 0 none (.set a)) (.seq (.rep true 0 none (.set a)) (.seq (.rep true 1 none (.set b)) x))) ∧
    (∀ c, a.has c = true → isSpace c = true) ∧ ∀ c, b.has c = true → c = c!"*"

theorem boxes_starred {p : Pat} (h : Boxes p) {l : Str} (hl : ¬ Starred l) : p.search l = none := by
  obtain ⟨a, b, x, hp, ha, hb⟩ := h
  cases hm : p.search l with
  | none => rfl
  | some m =>
    refine absurd ?_ hl
    obtain ⟨w, v, hw, rfl⟩ := Pat.search_start (p := p) (by rw [hp]; rfl) (l := l) (by rw [hm]; rfl)
    rw [hp] at hw
    obtain ⟨u0, v0, rfl, hu0, u1, v1, rfl, hu1, u2, v2, rfl, hu2, u3, v3, rfl, hu3, -⟩ := hw
    have e0 : u0 = [] := hu0
    subst e0
    have blank : ∀ {u}, Re.Lang (.rep true 0 none (.set a)) u → Blank u := by
      rintro u ⟨ws, rfl, -, -, hall⟩ c hc
      obtain ⟨w, hw, hc⟩ := List.mem_flatten.1 hc
      obtain ⟨d, hd, rfl⟩ := hall w hw
      rw [List.mem_singleton.1 hc]; exact ha d hd
    obtain ⟨ws, rfl, hmin, -, hall⟩ := hu3
    cases ws with
    | nil => simp at hmin
    | cons w ws =>
      obtain ⟨d, hd, rfl⟩ := hall w (by simp)
      obtain rfl := hb d hd
      exact ⟨u1 ++ u2, ws.flatten ++ v3 ++ v, by simp, fun c hc => (List.mem_append.1 hc).elim (blank hu1 c) (blank hu2 c)⟩

theorem ignores_boxed {s e : Pat} {n : Nat} {eof : Bool} {t : Str × Bool × List Str} (h : s.re.covers t.2.1 t.2.2 = true) (hb : Boxes s) : Ignores (takeBlock s e n eof) t :=
  fun _ _ hl => hl.elim (fun hl => takeBlock_skip (Pat.search_phrase h (fold_without hl))) fun hl => takeBlock_skip (boxes_starred hb hl.2)

theorem ignores_block {s e : Pat} {n : Nat} {eof : Bool} {t : Str × Bool × List Str} (h : s.re.covers t.2.1 t.2.2 = true) (ht : t.1 ∉ BOXED) : Ignores (takeBlock s e n eof) t :=
  fun _ _ hl => takeBlock_skip (Pat.search_phrase h (fold_without (without_plain ht hl)))

theorem ignores_match {p : Pat} {t : Str × Bool × List Str} (h : p.re.covers t.2.1 t.2.2 = true) (ht : t.1 ∉ BOXED) : Ignores (takeMatch p) t := by
  intro l rest hl
  rw [takeMatch, Pat.match_phrase h (fold_without (without_plain ht hl))]
  rfl

theorem ignores_search {p : Pat} {t : Str × Bool × List Str} (h : p.re.covers t.2.1 t.2.2 = true) (ht : t.1 ∉ BOXED) : Ignores (takeSearch p) t := by
  intro l rest hl
  rw [takeSearch, Pat.search_phrase h (fold_without (without_plain ht hl))]
  rfl

theorem ignores_contains {n w : Str} {ws : List Str} (hw : w ∈ ws) (ht : n ∉ BOXED) : Ignores (takeLine (Str.contains w)) (n, false, ws) := by
  intro l rest hl
  rw [takeLine, if_neg]
  rw [Str.contains_iff]
  exact without_plain ht hl w hw

theorem ignores_starts {n w : Str} {ws : List Str} (hw : w ∈ ws) (ht : n ∉ BOXED) : Ignores (takeLine (Str.startsWith · w)) (n, false, ws) := by
  intro l rest hl
  rw [takeLine, if_neg]
  intro h
  refine without_plain ht hl w hw ?_
  rw [Str.startsWith, List.isPrefixOf_iff_prefix] at h
  obtain ⟨t, h⟩ := h
  exact ⟨[], t, by simp [h]⟩

theorem ignores_final : Ignores takeFinal (py"finalisation", false, [py"Initialisation time"]) := by
  intro l rest hl
  rw [takeFinal, ignores_block (s := INIT_TIME_RE) (by decide +kernel) (by decide) l rest hl]

theorem ignores_md : Ignores takeMd (py"md", false, [py"Starting MD"]) := by
  intro l rest hl
  rw [takeMd, ignores_block (s := MD_STEP_RE) (by decide +kernel) (by decide) l rest hl]
  dsimp only
  exact ignores_block (s := MD_START_RE) (by decide +kernel) (by decide) l rest hl

theorem PARAMS_eq : PARAMS_RE.re = .seq .bol (.seq (NumRe.star AtomRe.sp) (.seq (NumRe.star AtomRe.sp) (.seq (.rep true 1 none (.set (AtomRe.ch 42)))
    (.seq (NumRe.star AtomRe.sp) (.seq (.rep true 1 none (.set ⟨true, [.ch 42], false⟩)) (litThen (py" Parameters") (.seq (NumRe.star AtomRe.sp) (.seq (.rep true 1 none (.set (AtomRe.ch 42)))
    (.seq (NumRe.star AtomRe.sp) (.seq (NumRe.star AtomRe.sp) .eol)))))))))) := by decide +kernel

theorem boxes_params : Boxes PARAMS_RE :=
  ⟨_, _, _, PARAMS_eq, fun c hc => by simpa [CSet.has, CItem.has] using hc, fun c hc => by simpa [CSet.has, CItem.has] using hc⟩

theorem star_only {c : Nat} (h : CSet.has ⟨false, [.ch 42], true⟩ c = true) : c = c!"*" := by
  have := lowerC_cases c
  have := (has_chi 42 c).1 h
  have : lowerC 42 = 42 := by decide
  show c = 42
  omega

theorem boxes_forces : Boxes Res.FORCES_BLOCK_RE :=
  ⟨_, _, _, FORCES_eq, fun c hc => by rwa [has_spi] at hc, fun _ => star_only⟩

theorem boxes_stress : Boxes Res.STRESSES_BLOCK_RE :=
  ⟨_, _, _, STRESSES_eq, fun c hc => by rwa [has_spi] at hc, fun _ => star_only⟩

set_option maxRecDepth 8000 in
attribute [local irreducible] takeBlock takeLine takeMatch takeSearch takeMd takeFinal onRun warning title cutoff
  appliedField mixture mdStep geomIteration pseudopot external newRun in
theorem sections_ignore : List.Forall₂ (fun t (sec : Section) => t.1 = sec.name ∧ Ignores sec.grab t) TRIGGERS sections := by
  unfold sections TRIGGERS
  repeat' refine List.Forall₂.cons ⟨rfl, ?_⟩ ?_
  all_goals first
    | exact ignores_block (by decide +kernel) (by decide)
    | exact ignores_match (by decide +kernel) (by decide)
    | exact ignores_search (by decide +kernel) (by decide)
    | exact ignores_contains (by simp) (by decide)
    | exact ignores_starts (by simp) (by decide)
    | exact ignores_boxed (by decide +kernel) boxes_params
    | exact ignores_boxed (by decide +kernel) boxes_forces
    | exact ignores_boxed (by decide +kernel) boxes_stress
    | exact ignores_final
    | exact ignores_md
    | exact .nil

/-! ### Which section a line opens -/

theorem dispatch_skip {env : Env} {line : Str} {ts : List (Str × Bool × List Str)} {pre : List Section}
    (h : List.Forall₂ (fun t (sec : Section) => t.1 = sec.name ∧ Ignores sec.grab t) ts pre) (hl : ∀ t ∈ ts, Without line t)
    (post : List Section) (rest : List Str) (s : State) : dispatch env line (pre ++ post) rest s = dispatch env line post rest s := by
  induction h with
  | nil => rfl
  | cons h _ ih =>
    rw [List.cons_append, dispatch_cons, h.2 line rest (hl _ (by simp))]
    exact ih fun t ht => hl t (by simp [ht])

theorem dispatch_quiet {env : Env} {line : Str} (h : Quiet line) (rest : List Str) (s : State) :
    dispatch env line sections rest s = .ok (s, rest) := by
  have := dispatch_skip (env := env) sections_ignore h [] rest s
  rw [List.append_nil] at this
  rw [this]; rfl

theorem dispatch_nth {n : Nat} {sec : Section} {name line : Str} (h : sections[n]? = some sec)
    (ht : TRIGGERS.takeWhile (·.1 ≠ name) = TRIGGERS.take n) (hr : Reaches name line) (env : Env) (rest : List Str) (s : State) :
    dispatch env line sections rest s = dispatch env line (sec :: sections.drop (n + 1)) rest s := by
  have e : sections = sections.take n ++ sec :: sections.drop (n + 1) := by
    obtain ⟨hn, h⟩ := List.getElem?_eq_some_iff.1 h
    rw [← h, List.getElem_cons_drop, List.take_append_drop]
  conv => lhs; rw [e]
  refine dispatch_skip (ts := TRIGGERS.take n) (List.forall₂_take n sections_ignore) ?_ _ _ _
  rw [← ht]; exact hr

/-! ### Blocks -/

theorem cut_pos {stop pass : Str → Prop} {n : Nat} {ls : List Str} (h : Cut stop pass n ls) : 0 < n := by
  induction h with
  | last _ => exact Nat.zero_lt_one
  | rule _ _ _ => exact Nat.succ_pos _
  | other _ _ ih => exact ih

theorem fromReLoop_cut {stop pass : Str → Prop} {endP : Str → Bool} (h1 : ∀ l, stop l → endP l = true) (h2 : ∀ l, pass l → endP l = false)
    {n : Nat} {ls : List Str} (h : Cut stop pass n ls) (rest : List Str) : ∀ (N found : Int) (fuel : Nat) (data : List Str), found + n = N → ls.length ≤ fuel →
      Block.fromReLoop (σ := List Str) endP N fuel found data (ls ++ rest) = (true, data ++ ls, rest) := by
  induction h with
  | last hl =>
    intro N found fuel data hN hf
    obtain ⟨f, rfl⟩ : ∃ k, fuel = k + 1 := ⟨fuel - 1, by simp at hf; omega⟩
    rw [Block.fromReLoop]
    simp [LineSource.next, h1 _ hl]
    omega
  | @rule l n ls hl hls ih =>
    intro N found fuel data hN hf
    obtain ⟨f, rfl⟩ : ∃ k, fuel = k + 1 := ⟨fuel - 1, by simp at hf; omega⟩
    have hn := cut_pos hls
    rw [Block.fromReLoop]
    simp only [LineSource.next, List.cons_append, h1 _ hl, if_true]
    rw [if_neg (by push_cast at hN; omega), ih N (found + 1) f (data ++ [l]) (by push_cast at hN; omega) (by simp at hf; omega)]
    simp
  | @other l n ls hl hls ih =>
    intro N found fuel data hN hf
    obtain ⟨f, rfl⟩ : ∃ k, fuel = k + 1 := ⟨fuel - 1, by simp at hf; omega⟩
    rw [Block.fromReLoop]
    simp only [LineSource.next, List.cons_append, h2 _ hl]
    rw [if_neg (by simp), ih N found f (data ++ [l]) hN (by simp at hf; omega)]
    simp

/-- A pattern is for the lines that stop a block. -/
def Stops1 (stop pass : Str → Prop) (q : Pat) : Prop := (∀ l, stop l → found q l = true) ∧ ∀ l, pass l → found q l = false

/-- A pattern is for the rulers of a character. -/
abbrev Rules (c : Nat) (q : Pat) : Prop := Stops1 (Ruler c) (fun l => ¬ Ruled c l) q

theorem strip_occurs {w l : Str} (h : Occurs w l) (hw : (w.any fun c => !isSpace c) = true) : ¬ Str.strip l = [] := by
  obtain ⟨a, b, rfl⟩ := h
  rw [strip_nil_iff]
  intro hb
  obtain ⟨d, hd, h⟩ := List.any_eq_true.1 hw
  have := hb d (by simp [hd])
  rw [this] at h
  cases h

theorem takeBlock_cut {stop pass : Str → Prop} {s e : Pat} (he : Stops1 stop pass e) {n : Nat} {t : Str} {b : List Str} (ht : found s t = true)
    (hb : Cut stop pass n b) (hne : ¬ Str.strip t = []) (rest : List Str) :
    takeBlock s e n false t (b ++ rest) = .ok (some ⟨t, t :: b, none⟩, rest) := by
  rw [takeBlock, blockOf, Block.from_re, ht]
  have := fromReLoop_cut he.1 he.2 hb rest n 0 (LineSource.bound (b ++ rest) + 1) [t] (by simp) (by simp [LineSource.bound]; omega)
  simp only [Bool.not_true, Bool.false_eq_true, if_false, this]
  simp [Block.truthy]
  exact fun h => absurd h hne

theorem rules_of {c : Nat} {q : Pat} (h1 : ∀ g s e, Blank g → s ≠ [] → (∀ d ∈ s, d = c) → (e = [] ∨ e = [10]) → q.re.Ex ([], g ++ (s ++ e)) ((s.reverse ++ g.reverse), e))
    (h2 : q.re.atStart = true) (h3 : q.re.atEnd = true) (h4 : ∀ w, Re.Lang q.re w → Ruled c w) : Rules c q := by
  constructor
  · rintro l ⟨g, s, e, rfl, hg, hs, hc, he⟩
    exact Pat.search_of_ex (h1 g s e hg hs hc he)
  · intro l hl
    cases hf : found q l with
    | false => rfl
    | true =>
      refine absurd ?_ hl
      obtain ⟨w, hw, h⟩ := Pat.search_whole h2 h3 hf
      obtain ⟨g, r, g', e, hg, hg', hr, hc⟩ := h4 w hw
      rcases h with rfl | rfl
      · exact ⟨g, r, g', e, hg, hg', hr, hc⟩
      · refine ⟨g, r, g' ++ [10], by rw [e]; simp, hg, fun d hd => ?_, hr, hc⟩
        rcases List.mem_append.1 hd with hd | hd
        · exact hg' d hd
        · obtain rfl := List.mem_singleton.1 hd
          rfl

open NumRe AtomRe

theorem ex_lit {r : Re} {q : Str × Str} {t : Str} : ∀ {s pre : Str}, r.Ex (s.reverse ++ pre, t) q → (litThen s r).Ex (pre, s ++ t) q
  | [], _, h => h
  | c :: s, pre, h => .seq (.set (by simp [CSet.has, CItem.has])) (ex_lit (s := s) (by simpa using h))

theorem ex_litRe {t : Str} : ∀ {s pre : Str}, (litRe s).Ex (pre, s ++ t) (s.reverse ++ pre, t)
  | [], _ => .eps
  | [c], _ => .set (by simp [CSet.has, CItem.has])
  | c :: d :: s, pre => by
    have := ex_litRe (t := t) (s := d :: s) (pre := c :: pre)
    have e : (c :: d :: s).reverse ++ pre = (d :: s).reverse ++ (c :: pre) := by simp
    rw [e]
    exact .seq (.set (by simp [CSet.has, CItem.has])) this

theorem ex_ruler {c : Nat} {g s e : Str} (hg : Blank g) (hs : s ≠ []) (hc : ∀ d ∈ s, d = c) (he : e = [] ∨ e = [10]) :
    Re.Ex (.seq .bol (.seq (star sp) (.seq (star sp) (.seq (.rep true 1 none (.set (ch c))) (.seq (star sp) (.seq (star sp) .eol))))))
      ([], g ++ (s ++ e)) (s.reverse ++ g.reverse, e) := by
  refine .seq .bol (.seq (.star (w := g) fun x hx => ?_) (.seq .none (.seq (.plus (w := s) (fun x hx => ?_) hs) ?_)))
  · simpa [CSet.has, CItem.has] using hg x hx
  · simp [CSet.has, CItem.has, hc x hx]
  · rw [List.append_nil]
    exact .seq .none (.seq .none (.eol he))

theorem DOUBLE_eq : DOUBLE_RE.re = .seq .bol (.seq (star sp) (.seq (star sp) (.seq (.rep true 1 none (.set (ch 61))) (.seq (star sp) (.seq (star sp) .eol))))) := by
  decide +kernel
theorem XLINE_eq : XLINE_RE.re = .seq .bol (.seq (star sp) (.seq (star sp) (.seq (.rep true 1 none (.set (ch 120))) (.seq (star sp) (.seq (star sp) .eol))))) := by
  decide +kernel
theorem STAR_END_eq : STAR_END_RE.re = .seq .bol (.seq (star sp) (.seq (.rep true 1 none (.set (ch 42))) .eol)) := by decide +kernel

theorem lang_blank {w : Str} (h : Re.Lang (star sp) w) : Blank w := by
  have := (lang_rep_set _ _ _ _ _).1 h
  intro c hc
  simpa [CSet.has, CItem.has] using this.1 c hc

theorem lang_run {c : Nat} {w : Str} (h : Re.Lang (.rep true 1 none (.set (ch c))) w) : w ≠ [] ∧ ∀ d ∈ w, d = c := by
  have := (lang_rep_set _ _ _ _ _).1 h
  refine ⟨?_, fun d hd => by simpa [CSet.has, CItem.has] using this.1 d hd⟩
  rintro rfl
  simp at this

theorem lang_ruler {c : Nat} {w : Str}
    (h : Re.Lang (.seq .bol (.seq (star sp) (.seq (star sp) (.seq (.rep true 1 none (.set (ch c))) (.seq (star sp) (.seq (star sp) .eol)))))) w) : Ruled c w := by
  obtain ⟨u0, _, rfl, rfl, u1, _, rfl, h1, u2, _, rfl, h2, u3, _, rfl, h3, u4, _, rfl, h4, u5, _, rfl, h5, rfl⟩ := h
  obtain ⟨h6, h7⟩ := lang_run h3
  refine ⟨u1 ++ u2, u3, u4 ++ u5, by simp, ?_, ?_, h6, h7⟩
  · intro d hd
    exact (List.mem_append.1 hd).elim (lang_blank h1 d) (lang_blank h2 d)
  · intro d hd
    exact (List.mem_append.1 hd).elim (lang_blank h4 d) (lang_blank h5 d)

theorem rules_double : Rules (c!"=") DOUBLE_RE := by
  refine rules_of (fun g s e hg hs hc he => ?_) ?_ ?_ (fun w hw => ?_)
  · rw [DOUBLE_eq]; exact ex_ruler hg hs hc he
  · decide +kernel
  · decide +kernel
  · rw [DOUBLE_eq] at hw; exact lang_ruler hw

theorem rules_xline : Rules (c!"x") XLINE_RE := by
  refine rules_of (fun g s e hg hs hc he => ?_) ?_ ?_ (fun w hw => ?_)
  · rw [XLINE_eq]; exact ex_ruler hg hs hc he
  · decide +kernel
  · decide +kernel
  · rw [XLINE_eq] at hw; exact lang_ruler hw

theorem rules_star : Rules (c!"*") STAR_END_RE := by
  refine rules_of (fun g s e hg hs hc he => ?_) ?_ ?_ (fun w hw => ?_)
  · rw [STAR_END_eq]
    refine .seq .bol (.seq (.star (w := g) fun x hx => ?_) (.seq (.plus (w := s) (fun x hx => ?_) hs) ?_))
    · simpa [CSet.has, CItem.has] using hg x hx
    · simp [CSet.has, CItem.has, hc x hx]
    · rw [List.append_nil]; exact .eol he
  · decide +kernel
  · decide +kernel
  · rw [STAR_END_eq] at hw
    obtain ⟨u0, _, rfl, rfl, u1, _, rfl, h1, u2, _, rfl, h2, rfl⟩ := hw
    obtain ⟨h6, h7⟩ := lang_run h2
    exact ⟨u1, u2, [], by simp, lang_blank h1, by simp [Blank], h6, h7⟩

theorem DASHES_eq : DASHES_RE.re = .seq .bol (.seq (star sp) (.seq (star sp) (.seq (.rep true 1 none (.set (ch 45))) (.seq (star sp) (.seq (star sp) .eol))))) := by
  decide +kernel

theorem rules_dashes : Rules (c!"-") DASHES_RE := by
  refine rules_of (fun g s e hg hs hc he => ?_) ?_ ?_ (fun w hw => ?_)
  · rw [DASHES_eq]; exact ex_ruler hg hs hc he
  · decide +kernel
  · decide +kernel
  · rw [DASHES_eq] at hw; exact lang_ruler hw

theorem EMPTY_eq : EMPTY_RE.re = .seq .bol (.seq (star sp) .eol) := by decide +kernel

theorem stops_empty : Stops1 Blank (fun l => ¬ Blank l) EMPTY_RE := by
  have : ∀ l, found EMPTY_RE l = true ↔ Blank l := by
    intro l
    constructor
    · intro h
      obtain ⟨w, hw, h⟩ := Pat.search_whole (by decide +kernel) (by decide +kernel) h
      have hm := Re.madeOf_sound (x := 32) (by decide +kernel) hw
      have hb : ∀ c ∈ w, isSpace c = true := fun c hc => (hm c hc).elim id fun e => by rw [e]; rfl
      intro c hc
      rcases h with rfl | rfl
      · exact hb c hc
      · rcases List.mem_append.1 hc with hc | hc
        · exact hb c hc
        · rw [List.mem_singleton.1 hc]; rfl
    · intro h
      refine Pat.search_of_ex (q := (l.reverse ++ [], [])) ?_
      rw [EMPTY_eq]
      have := Re.Ex.star (cs := sp) (w := l) (post := []) (pre := []) fun x hx => by simpa [CSet.has, CItem.has] using h x hx
      rw [List.append_nil] at this
      exact .seq .bol (.seq this (.eol (.inl rfl)))
  constructor
  · exact fun l h => (this l).2 h
  · intro l h
    cases hf : found EMPTY_RE l with
    | false => rfl
    | true => exact absurd ((this l).1 hf) h

theorem stops_scf : Stops1 ScfRuler (fun l => ¬ ScfRuler l) SCF_END_RE := by
  have h0 : SCF_END_RE.re = .seq .bol (.seq (.rep true 1 none (.set (ch 45))) (litRe (py" <-- SCF"))) := by decide +kernel
  have : ∀ l, found SCF_END_RE l = true ↔ ScfRuler l := by
    intro l
    constructor
    · intro h
      obtain ⟨w, v, hw, h⟩ := Pat.search_start (by decide +kernel) h
      rw [h0] at hw
      obtain ⟨u1, w1, e1, e2, u2, w2, e3, ⟨ws, e4, h1, -, h2⟩, h3⟩ := hw
      rw [lang_lit] at h3
      have e2 : u1 = [] := e2
      subst e2 e3 e4 h3 e1
      refine ⟨ws.flatten, v, by rw [h]; simp, ?_, ?_⟩
      · intro e
        cases ws with
        | nil => simp at h1
        | cons a ws =>
          obtain ⟨c, hc, rfl⟩ := h2 a (by simp)
          simp at e
      · intro c hc
        obtain ⟨a, ha, hc⟩ := List.mem_flatten.1 hc
        obtain ⟨d, hd, rfl⟩ := h2 a ha
        obtain rfl := List.mem_singleton.1 hc
        simpa [CSet.has, CItem.has] using hd
    · rintro ⟨s, t, rfl, hs, hd⟩
      refine Pat.search_of_ex (q := ((py" <-- SCF").reverse ++ (s.reverse ++ []), t)) ?_
      rw [h0]
      exact .seq .bol (.seq (.plus (fun x hx => by simp [CSet.has, CItem.has, hd x hx]) hs) ex_litRe)
  constructor
  · exact fun l h => (this l).2 h
  · intro l h
    cases hf : found SCF_END_RE l with
    | false => rfl
    | true => exact absurd ((this l).1 hf) h

end Verif.Castep
