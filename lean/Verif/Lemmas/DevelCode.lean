import Verif.Spec.DevelCode
import Verif.Lemmas.NonLin
import Verif.Lemmas.LineTables
import Verif.Lemmas.Words
import Verif.Lemmas.CellBlocks
/- Settings in a `devel_code` block. -/
namespace Verif
open Re NumRe AtomRe Spec Cell

namespace Devel

abbrev nm : CSet := ⟨false, [.range 65 90, .range 97 122, .range 48 57, .ch 95], false⟩
abbrev ce : CSet := ⟨false, [.ch 58, .ch 61], false⟩
abbrev nv : CSet := ⟨true, [.ch 32, .ch 9, .ch 10, .ch 59], false⟩
abbrev VAL : Re := .seq (plus nm) (.seq (.set ce) (plus nv))

theorem VAL_eq : DEVEL_VAL_RE = ⟨VAL, [], 0⟩ := by decide +kernel
theorem CE_eq : COLON_EQ_RE = ⟨.set ce, [], 0⟩ := by decide +kernel

theorem has_ce {c : Nat} (h : c ≠ 58 ∧ c ≠ 61) : ce.has c = false := by simp [CSet.has, CItem.has, h]
theorem has_nm {c : Nat} (h : DevelWord.NameChar c) : nm.has c = true := by
  simp [CSet.has, CItem.has]; simp [DevelWord.NameChar] at h; omega
theorem nm_blank {c : Nat} (h : isSpace c = true) : nm.has c = false := by
  simp [CSet.has, CItem.has]; simp [isSpace] at h; omega
theorem nm_eq : nm.has 61 = false := by decide

/-- What a match of a setting has to contain. -/
theorem val_lang {w : Str} (h : Lang VAL w) : ∃ a c b, w = a ++ c :: b ∧ a ≠ [] ∧ (∀ x ∈ a, nm.has x = true) ∧ (c = 58 ∨ c = 61) := by
  obtain ⟨a, r, e, ha, hr⟩ := h
  obtain ⟨x, b, e2, hx, hb⟩ := hr
  have h1 := (lang_rep_set _ _ _ _ _).1 ha
  obtain ⟨c, hc, rfl⟩ := hx
  refine ⟨a, c, b, by rw [e, e2]; rfl, ?_, h1.1, ?_⟩
  · rintro rfl; simpa using h1.2.1
  · simpa [CSet.has, CItem.has] using hc

theorem none_of {pre s : Str} (h : ∀ a c b, s = a ++ c :: b → a ≠ [] → (∀ x ∈ a, nm.has x = true) → (c = 58 ∨ c = 61) → False) :
    DEVEL_VAL_RE.matchAt pre s = none := by
  cases hm : DEVEL_VAL_RE.matchAt pre s with
  | none => rfl
  | some x =>
    exfalso
    obtain ⟨e, -, hl, -⟩ := Pat.matchAt_some hm
    rw [VAL_eq] at hl
    obtain ⟨a, c, b, e2, ha, hn, hc⟩ := val_lang hl
    exact h a c (b ++ x.after) (by rw [e, e2]; simp) ha hn hc

/-- No setting begins in a text without a colon and an equals sign that ends with a blank. -/
theorem gap_none {v rest pre : Str} (hv : v ≠ []) (hl : isSpace (v.getLast hv) = true) (hn : ∀ c ∈ v, c ≠ 58 ∧ c ≠ 61) :
    DEVEL_VAL_RE.matchAt pre (v ++ rest) = none := by
  refine none_of fun a c b e ha hw hc => ?_
  rcases List.append_eq_append_iff.1 e with ⟨t, h1, h2⟩ | ⟨t, h1, h2⟩
  · have := hw (v.getLast hv) (by rw [h1]; simp)
    rw [nm_blank hl] at this; cases this
  · cases t with
    | nil =>
      have : v = a := by simpa using h1
      subst this
      have := hw (v.getLast hv) (by simp)
      rw [nm_blank hl] at this; cases this
    | cons d t =>
      cases h2
      have := hn c (by rw [h1]; simp)
      omega

theorem end_none {v pre : Str} (hn : ∀ c ∈ v, c ≠ 58 ∧ c ≠ 61) : DEVEL_VAL_RE.matchAt pre v = none := by
  refine none_of fun a c b e ha hw hc => ?_
  have := hn c (by rw [e]; simp)
  omega

/-- The match of a setting. -/
theorem set_match {k v s pre : Str} (hk : k ≠ [] ∧ ∀ c ∈ k, DevelWord.NameChar c) (hv : v ≠ [] ∧ ∀ c ∈ v, c ∉ py";:=%") (hb : ∀ c ∈ v, isSpace c = false)
    (hs : ∀ c, s.head? = some c → c ∈ py" \t\n") :
    ∃ x, DEVEL_VAL_RE.matchAt pre ((k ++ 61 :: v) ++ s) = some x ∧ x.whole = k ++ 61 :: v := by
  obtain ⟨x, h1, h2, -⟩ := NonLinL.match_of (q := DEVEL_VAL_RE) (pre := pre) (w := k ++ 61 :: v) (rest := s) (cp := []) (by
    rw [VAL_eq]
    show run VAL _ _ = _
    rw [VAL, run_seq, List.append_assoc]
    refine run_plus_all nm 1 k _ _ _ _ _ _ (List.length_pos_of_ne_nil hk.1) (fun c hc => has_nm (hk.2 c hc)) (by intro c hc; cases hc; exact nm_eq) (by simp) ?_
    rw [run_seq, List.cons_append, run_set_cons, if_pos (by decide)]
    refine run_plus_all nv 1 v _ _ _ _ _ _ (List.length_pos_of_ne_nil hv.1) (fun c hc => ?_) (fun c hc => ?_) (by simp) ?_
    · have h1 := hb c hc
      have h2 := hv.2 c hc
      simp [isSpace] at h1
      simp at h2
      simp [CSet.has, CItem.has]
      omega
    · have := hs c hc
      simp at this
      rcases this with rfl | rfl | rfl <;> decide
    · simp)
  exact ⟨x, h1, h2⟩

/-- The settings that are found. -/
theorem find_settings : ∀ (ws : List DevelWord), (∀ w ∈ ws, w.Ok) → ∀ (G T pre : Str) (fuel : Nat), Fields T (ws.map DevelWord.text) → (∀ c ∈ T, isSpace c = true → c ∈ py" \t\n") →
    (∀ c ∈ G, c ≠ 58 ∧ c ≠ 61) → ((∀ c, T.head? = some c → isSpace c = true) ∨ ∀ h : G ≠ [], isSpace (G.getLast h) = true) → (ws.filterMap DevelWord.pair?).length ≤ fuel →
    (DEVEL_VAL_RE.findFrom fuel pre (G ++ T)).map Match.whole = (ws.filterMap DevelWord.pair?).map fun p => p.1 ++ 61 :: p.2 := by
  intro ws
  induction ws with
  | nil =>
    intro _ G T pre fuel hT _ hG _ _
    have hT := blank_of_fields hT
    rw [Pat.findFrom_nil]
    · rfl
    · intro u v e
      refine end_none fun c hc => ?_
      have : c ∈ G ++ T := by rw [e]; simp [hc]
      rcases List.mem_append.1 this with h | h
      · exact hG c h
      · have := hT c h
        constructor <;> rintro rfl <;> simp [isSpace] at this
  | cons w ws ih =>
    intro hok G T pre fuel hT hb hG hor hf
    obtain ⟨g, s, rfl, hg, hne, hw, hs, hrest⟩ := fields_uncons hT
    have hgn : ∀ c ∈ g, c ≠ 58 ∧ c ≠ 61 := by
      intro c hc
      have := hg c hc
      constructor <;> rintro rfl <;> simp [isSpace] at this
    have ho := hok w (by simp)
    cases w with
    | other w =>
      have := ih (fun x hx => hok x (by simp [hx])) (G ++ (g ++ w)) s pre fuel hrest (fun c hc => hb c (by simp [hc])) (by
        intro c hc
        rcases List.mem_append.1 hc with h | h
        · exact hG c h
        · rcases List.mem_append.1 h with h | h
          · exact hgn c h
          · have := ho c h
            simp at this
            omega) (.inl hs) hf
      rw [show (DevelWord.other w :: ws).filterMap DevelWord.pair? = ws.filterMap DevelWord.pair? from rfl, ← this]
      simp [DevelWord.text]
    | setting k v =>
      obtain ⟨fuel, rfl⟩ : ∃ f, fuel = f + 1 := ⟨fuel - 1, by simp [DevelWord.pair?] at hf; omega⟩
      have hvb : ∀ c ∈ v, isSpace c = false := fun c hc => hw c (by simp [DevelWord.text, hc])
      obtain ⟨x, h1, h2⟩ := set_match (pre := (G ++ g).reverse ++ pre) ho.1 ho.2.1 hvb (s := s) (fun c hc => by
        have : c ∈ s := List.mem_of_mem_head? hc
        exact hb c (by simp [this]) (hs c hc))
      have hlast : ∀ h : G ++ g ≠ [], isSpace ((G ++ g).getLast h) = true := by
        intro h
        by_cases hg0 : g = []
        · subst hg0
          simp only [List.append_nil] at h ⊢
          rcases hor with h' | h'
          · exfalso
            obtain ⟨c, r, e⟩ := List.exists_cons_of_ne_nil hne
            have a1 := h' c (by rw [e]; rfl)
            have a2 := hw c (by rw [e]; simp)
            rw [a1] at a2; cases a2
          · exact h' h
        · rw [List.getLast_append_of_ne_nil _ hg0]
          exact hg _ (List.getLast_mem hg0)
      have e : G ++ (g ++ ((DevelWord.setting k v).text ++ s)) = (G ++ g) ++ ((k ++ 61 :: v) ++ s) := by simp [DevelWord.text]
      rw [e, Pat.findFrom_cons DEVEL_VAL_RE fuel pre (G ++ g) (k ++ 61 :: v) s x (by simp) ?_ h1 h2]
      · have := ih (fun x hx => hok x (by simp [hx])) [] s ((k ++ 61 :: v).reverse ++ ((G ++ g).reverse ++ pre)) fuel hrest (fun c hc => hb c (by simp [hc])) (by simp) (.inl hs)
          (by simpa [DevelWord.pair?] using hf)
        rw [List.nil_append] at this
        rw [List.map_cons, this, h2]
        simp [DevelWord.pair?]
      · intro u v' e hv'
        refine gap_none hv' ?_ fun c hc => ?_
        · have := hlast (by rw [e]; simp [hv'])
          simp only [e, List.getLast_append_of_ne_nil _ hv'] at this
          exact this
        · have : c ∈ G ++ g := by rw [e]; simp [hc]
          rcases List.mem_append.1 this with h | h
          · exact hG c h
          · exact hgn c h

/-- A setting taken apart. -/
theorem pair_of {k v : Str} (hk : ∀ c ∈ k, c ≠ 58 ∧ c ≠ 61) (hv : ∀ c ∈ v, c ≠ 58 ∧ c ≠ 61) : COLON_EQ_RE.split (k ++ 61 :: v) = [k, v] := by
  have hn : ∀ (pre : Str) (s : Str), (∀ c, s.head? = some c → c ≠ 58 ∧ c ≠ 61) → COLON_EQ_RE.matchAt pre s = none := by
    intro pre s h
    rw [CE_eq, Pat.matchAt_eq]
    cases s with
    | nil => rfl
    | cons c s => show Option.map _ (run (.set ce) _ _) = _; rw [run_set_cons, has_ce (h c rfl)]; rfl
  have := Pat.split_spec COLON_EQ_RE (w0 := k) (l := [([61], v)]) (.cons [] k [61] v [] ⟨k, [61], v, [], [], 0⟩ (by simp) ?_ ?_ rfl (.nil _ _ ?_)) (by simp)
  · simpa using this
  · intro u w e hw
    refine hn _ _ fun c hc => hk c ?_
    obtain ⟨d, w, rfl⟩ := List.exists_cons_of_ne_nil hw
    cases hc
    rw [e]; simp
  · rw [CE_eq, Pat.matchAt_eq]
    show Option.map _ (run (.set ce) _ _) = _
    simp [run_set_cons, ce, CSet.has, CItem.has, St.upTo]
  · intro u w e
    refine hn _ _ fun c hc => hv c ?_
    rw [e]
    exact List.mem_append_right _ (List.mem_of_mem_head? hc)

theorem key_head (s : Str) : (normalise_key s).head? ≠ some 95 := by
  rw [normalise_key_eq]
  have h := fun w => alnumWords_mem (s := s) (w := w)
  have hc : ∀ w ∈ alnumWords s, ∀ r : Str, (Str.lower w ++ r).head? ≠ some 95 := by
    intro w hw r
    obtain ⟨h1, h2⟩ := h w hw
    obtain ⟨c, w', rfl⟩ := List.exists_cons_of_ne_nil h1
    have := h2 c (by simp)
    simp [isAlnum, isAlpha, isLower, isUpper, isDigit] at this
    simp [Str.lower, lowerC, isUpper]
    split <;> omega
  cases e : alnumWords s with
  | nil => simp [Str.join]
  | cons w ws =>
    cases ws with
    | nil => simpa [Str.join] using hc w (by rw [e]; simp) []
    | cons v vs =>
      simp only [List.map_cons, Str.join, List.append_assoc]
      exact hc w (by rw [e]; simp) _

/-- Flags do not replace settings. -/
theorem present_keeps (ms : List Match) : ∀ (d : Dict Key PyVal) (k : Str) (v : PyVal), k.head? ≠ some 95 → d.get? (.str k) = some v →
    (develPresent ms d).get? (.str k) = some v := by
  induction ms with
  | nil => intro d k v _ h; exact h
  | cons m ms ih =>
    intro d k v hk h
    refine ih _ k v hk ?_
    rw [Dict.get?_set_ne]
    · exact h
    · rw [fresh, Dict.mem]
      split
      · intro e
        have := Key.str.inj e
        exact hk (by rw [this]; rfl)
      · next hm =>
        intro e
        rw [← e, h] at hm
        exact hm rfl

/-- The settings are stored. -/
theorem rest_of : ∀ (ps : List (Str × Str)) (ms : List Match), ms.map Match.whole = ps.map (fun p => p.1 ++ 61 :: p.2) →
    (∀ p ∈ ps, (∀ c ∈ p.1, c ≠ 58 ∧ c ≠ 61) ∧ (∀ c ∈ p.2, c ≠ 58 ∧ c ≠ 61) ∧ ∃ x, PropValue p.2 x ∧ to_type (determine_type p.2) (.str p.2) = .ok x) →
    (ps.map fun p => normalise_key p.1).Nodup → ∀ d : Dict Key PyVal, (∀ p ∈ ps, d.get? (.str (normalise_key p.1)) = none) →
    ∃ d', develRest ms d = .ok d' ∧ (∀ k v, d.get? k = some v → d'.get? k = some v) ∧ (∀ p ∈ ps, ∃ x, PropValue p.2 x ∧ d'.get? (.str (normalise_key p.1)) = some x) ∧
      ∀ k, (∀ p ∈ ps, k ≠ .str (normalise_key p.1)) → d'.get? k = d.get? k := by
  intro ps
  induction ps with
  | nil =>
    intro ms hm _ _ d _
    have : ms = [] := by simpa using hm
    subst this
    exact ⟨d, rfl, fun _ _ h => h, by simp, fun _ _ => rfl⟩
  | cons p ps ih =>
    intro ms hm hok hn d hd
    cases ms with
    | nil => cases hm
    | cons m ms =>
      rw [List.map_cons, List.map_cons, List.cons.injEq] at hm
      obtain ⟨h1, h2, x, h3, h4⟩ := hok p (by simp)
      rw [List.map_cons, List.nodup_cons] at hn
      have hf : fresh d (normalise_key p.1) = .str (normalise_key p.1) := by
        rw [fresh, Dict.mem, hd p (by simp)]; rfl
      obtain ⟨d', e1, e2, e3, e4⟩ := ih ms hm.2 (fun q hq => hok q (by simp [hq])) hn.2 (d.set (.str (normalise_key p.1)) x) (by
        intro q hq
        rw [Dict.get?_set_ne]
        · exact hd q (by simp [hq])
        · intro e
          exact hn.1 (List.mem_map.2 ⟨q, hq, Key.str.inj e⟩))
      refine ⟨d', ?_, ?_, ?_, ?_⟩
      · rw [develRest, develPair, hm.1, pair_of h1 h2]
        show (do let (key, v) ← (do let v ← to_type (determine_type p.2) (.str p.2); pure (normalise_key p.1, v)); _) = _
        rw [h4]
        show develRest ms (d.set (fresh d (normalise_key p.1)) x) = _
        rw [hf, e1]
      · intro k v hk
        refine e2 k v ?_
        rw [Dict.get?_set_ne]
        · exact hk
        · rintro rfl
          rw [hd p (by simp)] at hk; cases hk
      · intro q hq
        rcases List.mem_cons.1 hq with rfl | hq
        · exact ⟨x, h3, e2 _ _ (Dict.get?_set_self _ _ _)⟩
        · exact e3 q hq
      · intro k hk
        rw [e4 k fun q hq => hk q (by simp [hq]), Dict.get?_set_ne]
        exact hk p (by simp)

abbrev pw : CSet := ⟨false, [.range 65 90, .range 97 122, .ch 95, .ch 45], false⟩
abbrev PRES : Re := .seq (.behind true ce) (.seq (.wordB false) (.seq (plus pw) (.seq (.wordB false) (.ahead true (.set ce)))))

theorem PRES_eq : PRESENT_RE = ⟨PRES, [], 0⟩ := by decide +kernel

theorem run_wordB {β : Type} (s : St) (k : St → Option β) : run (.wordB false) s k = if wordBefore s != wordAfter s then k s else none := by
  simp only [run, m]
  cases wordBefore s <;> cases wordAfter s <;> simp

theorem pw_blank {c : Nat} (h : isSpace c = true) : pw.has c = false := by
  rw [Bool.eq_false_iff]
  intro hc
  simp [CSet.has, CItem.has] at hc
  simp [isSpace] at h
  omega

theorem pres_lang {pre post : Str} {x : Match} (h : PRESENT_RE.matchAt pre post = some x) : post = x.whole ++ x.after ∧ x.whole ≠ [] ∧ ∀ c ∈ x.whole, isSpace c = false := by
  obtain ⟨e, -, hl, -⟩ := Pat.matchAt_some h
  rw [PRES_eq] at hl
  obtain ⟨u1, v1, e1, h1, u2, v2, e2, h2, u3, v3, e3, h3, u4, v4, e4, h4, h5⟩ := hl
  have h1 : u1 = [] := h1
  have h2 : u2 = [] := h2
  have h4 : u4 = [] := h4
  have h5 : v4 = [] := h5
  subst h1 h2 h4 h5 e4 e3 e2
  have h3 := (lang_rep_set _ _ _ _ _).1 h3
  have e1 : x.whole = u3 := by simpa using e1
  refine ⟨e, ?_, fun c hc => ?_⟩
  · rw [e1]; rintro rfl; simpa using h3.2.1
  · rw [Bool.eq_false_iff]
    intro hs
    have := h3.1 c (e1 ▸ hc)
    rw [pw_blank hs] at this; cases this

/-- The match of a flag. -/
theorem flag_match {w s pre : Str} (hw : w ≠ []) (hl : ∀ c ∈ w, DevelWord.Letter c) (hp : ∀ c, pre.head? = some c → isSpace c = true) (hs : ∀ c, s.head? = some c → isSpace c = true) :
    ∃ x, PRESENT_RE.matchAt pre (w ++ s) = some x ∧ x.whole = w := by
  have hword : ∀ c, isSpace c = true → isWord c = false := by
    intro c h
    simp [isSpace] at h
    simp [isWord, isAlnum, isAlpha, isUpper, isLower, isDigit]
    omega
  have hletter : ∀ c, DevelWord.Letter c → isWord c = true := by
    intro c h
    simp only [DevelWord.Letter] at h
    simp [isWord, isAlnum, isAlpha, isUpper, isLower, isDigit]
    omega
  have hb : ∀ q : Str, (∀ c, q.head? = some c → isSpace c = true) → ∀ r caps, wordBefore ⟨q, r, caps⟩ = false := by
    intro q hq r caps
    cases q with
    | nil => rfl
    | cons c q => exact hword c (hq c rfl)
  have ha : ∀ q : Str, (∀ c, q.head? = some c → isSpace c = true) → ∀ r caps, wordAfter ⟨r, q, caps⟩ = false := by
    intro q hq r caps
    cases q with
    | nil => rfl
    | cons c q => exact hword c (hq c rfl)
  have hce : ∀ c, isSpace c = true → ce.has c = false := by
    intro c h
    apply has_ce
    constructor <;> rintro rfl <;> simp [isSpace] at h
  obtain ⟨x, h1, h2, -⟩ := NonLinL.match_of (q := PRESENT_RE) (pre := pre) (w := w) (rest := s) (cp := []) (by
    rw [PRES_eq]
    show run PRES _ _ = _
    have h0 : ∀ k : St → Option St, run (.behind true ce) ⟨pre, w ++ s, []⟩ k = k ⟨pre, w ++ s, []⟩ := by
      intro k
      cases pre with
      | nil => rw [run_behind_nil]; rfl
      | cons c pre => rw [run_behind_cons, hce c (hp c rfl)]; rfl
    rw [PRES, run_seq, h0, run_seq, run_wordB, hb pre hp]
    have h1 : wordAfter ⟨pre, w ++ s, []⟩ = true := by
      obtain ⟨c, t, rfl⟩ := List.exists_cons_of_ne_nil hw
      exact hletter c (hl c (by simp))
    rw [h1, if_pos (by rfl), run_seq]
    refine run_plus_all pw 1 w _ _ _ _ _ _ (List.length_pos_of_ne_nil hw) (fun c hc => ?_) (fun c hc => pw_blank (hs c hc)) (by simp) ?_
    · have := hl c hc
      simp only [DevelWord.Letter] at this
      simp [CSet.has, CItem.has]
      omega
    · have h2 : wordBefore ⟨w.reverse ++ pre, s, []⟩ = true := by
        obtain ⟨c, t, e⟩ := List.exists_cons_of_ne_nil (l := w.reverse) (by simpa using hw)
        rw [e]
        exact hletter c (hl c (by rw [← List.mem_reverse, e]; simp))
      rw [run_seq, run_wordB, h2, ha s hs, if_pos (by rfl), run_ahead, run_set_stops _ (fun c hc => hce c (hs c hc))]
      rfl)
  exact ⟨x, h1, h2⟩

/-- A flag between blanks is found. -/
theorem found_flag {w s : Str} (hw : w ≠ []) (hl : ∀ c ∈ w, DevelWord.Letter c) (hs : ∀ c, s.head? = some c → isSpace c = true) : ∀ (n : Nat) (A pre : Str) (fuel : Nat), A.length ≤ n →
    A.length < fuel → (∀ c, (A.reverse ++ pre).head? = some c → isSpace c = true) → ∃ x ∈ PRESENT_RE.findFrom fuel pre (A ++ (w ++ s)), x.whole = w := by
  intro n
  induction n with
  | zero =>
    intro A pre fuel hn hf hp
    obtain rfl : A = [] := List.eq_nil_of_length_eq_zero (by omega)
    obtain ⟨fuel, rfl⟩ : ∃ f, fuel = f + 1 := ⟨fuel - 1, by omega⟩
    obtain ⟨x, h1, h2⟩ := flag_match hw hl hp hs
    rw [Pat.findFrom_cons PRESENT_RE fuel pre [] w s x hw (by intro u v e hv; simp at e; exact absurd e.2 hv) h1 h2]
    exact ⟨x, by simp, h2⟩
  | succ n ih =>
    intro A pre fuel hn hf hp
    obtain ⟨fuel, rfl⟩ : ∃ f, fuel = f + 1 := ⟨fuel - 1, by omega⟩
    cases A with
    | nil => exact ih [] pre _ (by simp) (by simp) hp
    | cons c A =>
      cases hm : PRESENT_RE.matchAt pre (c :: (A ++ (w ++ s))) with
      | none =>
        have e : PRESENT_RE.findFrom (fuel + 1) pre (c :: (A ++ (w ++ s))) = PRESENT_RE.findFrom (fuel + 1) (c :: pre) (A ++ (w ++ s)) := by
          rw [Pat.findFrom, Pat.findFrom, Pat.searchFrom, hm]
        rw [List.cons_append, e]
        exact ih A (c :: pre) _ (by simpa using hn) (by simp at hf; omega) (by simpa using hp)
      | some x =>
        obtain ⟨e, hne, hb⟩ := pres_lang hm
        have e' : (c :: A) ++ (w ++ s) = x.whole ++ x.after := by rw [← e]; rfl
        have hlast : isSpace ((c :: A).getLast (by simp)) = true := by
          refine hp _ ?_
          rw [List.head?_append_of_ne_nil _ (by simp), List.head?_reverse, List.getLast?_eq_getLast_of_ne_nil (by simp)]
        have hmem : (c :: A).getLast (by simp) ∉ x.whole := fun h => by rw [hb _ h] at hlast; cases hlast
        obtain ⟨B, hB, hBne, hafter⟩ : ∃ B, c :: A = x.whole ++ B ∧ B ≠ [] ∧ x.after = B ++ (w ++ s) := by
          rcases List.append_eq_append_iff.1 e' with ⟨t, h1, h2⟩ | ⟨t, h1, h2⟩
          · exact absurd (by rw [h1]; exact List.mem_append_left _ (List.getLast_mem _)) hmem
          · refine ⟨t, h1, ?_, h2⟩
            rintro rfl
            rw [List.append_nil] at h1
            exact hmem (by rw [← h1]; exact List.getLast_mem _)
        have hlen : (c :: A).length = x.whole.length + B.length := by rw [hB, List.length_append]
        have hpos := List.length_pos_of_ne_nil hne
        rw [hB, List.append_assoc]
        rw [hB] at hp
        have := Pat.findFrom_cons PRESENT_RE fuel pre [] x.whole (B ++ (w ++ s)) x hne (by intro u v e hv; simp at e; exact absurd e.2 hv) (by
          rw [← hafter, ← e]; exact hm) rfl
        rw [List.nil_append] at this
        rw [this]
        obtain ⟨y, h1, h2⟩ := ih B (x.whole.reverse ++ pre) fuel (by omega) (by omega) (by simpa using hp)
        exact ⟨y, by simpa using .inr h1, h2⟩

/-- A flag whose name is not taken is stored. -/
theorem present_flag : ∀ (ms : List Match) (d : Dict Key PyVal) (k : Str), k.head? ≠ some 95 → (d.get? (.str k) = none ∨ d.get? (.str k) = some .none) →
    (∃ x ∈ ms, normalise_key x.whole = k) → (develPresent ms d).get? (.str k) = some .none := by
  intro ms
  induction ms with
  | nil => rintro d k _ _ ⟨x, hx, -⟩; cases hx
  | cons y ms ih =>
    intro d k hk hd hx
    by_cases hy : normalise_key y.whole = k
    · show (develPresent ms (d.set (fresh d (normalise_key y.whole)) .none)).get? _ = _
      rcases hd with hd | hd
      · refine present_keeps ms _ k _ hk ?_
        rw [hy, fresh, Dict.mem, hd, if_neg (by simp), Dict.get?_set_self]
      · exact present_keeps (y :: ms) d k _ hk hd
    · obtain ⟨x, hx, e⟩ := hx
      rcases List.mem_cons.1 hx with rfl | hx
      · exact absurd e hy
      · refine ih _ k hk ?_ ⟨x, hx, e⟩
        rw [Dict.get?_set_ne]
        · exact hd
        · rw [fresh]
          split
          · intro e
            exact hk (by rw [Key.str.inj e]; rfl)
          · intro e
            exact hy (Key.str.inj e).symm

theorem fields_at {T : Str} : ∀ {ws : List Str}, Fields T ws → ∀ w ∈ ws, ∃ A s, T = A ++ (w ++ s) ∧ w ≠ [] ∧ (∀ c, A.reverse.head? = some c → isSpace c = true) ∧
    (∀ c, s.head? = some c → isSpace c = true) ∧ ∀ c ∈ w, isSpace c = false := by
  intro ws
  induction ws generalizing T with
  | nil => intro _ w hw; cases hw
  | cons v ws ih =>
    intro h w hw
    obtain ⟨g, s, rfl, hg, hne, hv, hs, hr⟩ := fields_uncons h
    rcases List.mem_cons.1 hw with rfl | hw
    · exact ⟨g, s, rfl, hne, fun c hc => hg c (List.mem_reverse.1 (List.mem_of_mem_head? hc)), hs, hv⟩
    · obtain ⟨A, r, rfl, h1, h2, h3, h4⟩ := ih hr w hw
      have hA : A ≠ [] ∨ A = [] := by by_cases h : A = [] <;> simp [h]
      rcases hA with hA | rfl
      · refine ⟨g ++ (v ++ A), r, by simp, h1, fun c hc => h2 c ?_, h3, h4⟩
        rw [List.reverse_append, List.reverse_append, List.append_assoc, List.head?_append_of_ne_nil _ (by simpa using hA)] at hc
        exact hc
      · exfalso
        obtain ⟨c, t, rfl⟩ := List.exists_cons_of_ne_nil h1
        have a := hs c rfl
        rw [h4 c (by simp)] at a
        cases a

theorem join_snoc (e : Str) : ∀ ls : List Str, Str.join (py" ") (ls ++ [e]) = (ls.flatMap fun l => l ++ [32]) ++ e
  | [] => rfl
  | [a] => by simp [Str.join]
  | a :: b :: l => by
    have := join_snoc e (b :: l)
    simp only [List.cons_append] at this ⊢
    rw [Str.join, this]
    simp

/-- The words of the lines put together. -/
theorem text_fields {ls : List Str} {wss : List (List DevelWord)} (h : List.Forall₂ DevelWord.Line ls wss) :
    Fields ((ls.map Str.strip).flatMap fun l => l ++ [32]) (wss.flatten.map DevelWord.text) ∧
      ∀ c ∈ (ls.map Str.strip).flatMap fun l => l ++ [32], isSpace c = true → c ∈ py" \t\n" := by
  induction h with
  | nil => exact ⟨fields_blank (by intro c hc; cases hc), by simp⟩
  | @cons l ws ls wss hl _ ih =>
    have hf : Fields (Str.strip l) (ws.map DevelWord.text) := (fields_iff _ _).2 (by rw [split_strip]; exact (fields_iff _ _).1 hl.1)
    constructor
    · have := fields_gap (g := [32]) hf (by intro c hc; simp at hc; subst hc; rfl) (by simp) ih.1
      simpa using this
    · intro c hc hs
      rw [List.map_cons, List.flatMap_cons] at hc
      rcases List.mem_append.1 hc with h | h
      · rcases List.mem_append.1 h with h | h
        · obtain ⟨g, g', e, -⟩ := strip_pad l
          exact hl.2 c (by rw [e]; simp [h]) hs
        · simp at h; subst h; decide
      · exact ih.2 c h hs

abbrev END_RE : Pat := rx (ci := true) (py r"%endblock\s+devel_code")

abbrev cc (c : Nat) : CSet := ⟨false, [.ch c], true⟩

theorem cc_eq {c d : Nat} (hd : d < 65) (h : (cc d).has c = true) : c = d := by
  simp [CSet.has, CItem.has, lowerC, upperC, isUpper, isLower] at h
  split at h <;> split at h <;> omega

theorem END_eq : END_RE = ⟨ciThen (py"%endblock") (.seq (.rep true 1 none (.set ⟨false, [.space], true⟩)) (ciRe (py"devel_code"))), [], 0⟩ := by decide +kernel

theorem lower_cons {x : Nat} {s w : Str} (h : Str.lower w = x :: s) : ∃ c t, w = c :: t ∧ lowerC c = x ∧ Str.lower t = s := by
  cases w with
  | nil => cases h
  | cons c t =>
    simp only [Str.lower, List.map_cons, List.cons.injEq] at h
    exact ⟨c, t, rfl, h.1, h.2⟩

theorem run_ciThen {β : Type} (r : Re) : ∀ (s : Str), Str.lower s = s → ∀ (w pre rest : Str) (caps) (k : St → Option β), Str.lower w = s →
    run (ciThen s r) ⟨pre, w ++ rest, caps⟩ k = run r ⟨w.reverse ++ pre, rest, caps⟩ k := by
  intro s
  induction s with
  | nil =>
    intro _ w pre rest caps k h
    have : w = [] := by cases w with | nil => rfl | cons _ _ => cases h
    subst this
    rfl
  | cons x s ih =>
    intro hs w pre rest caps k h
    simp only [Str.lower, List.map_cons, List.cons.injEq] at hs
    obtain ⟨c, t, rfl, h1, h2⟩ := lower_cons h
    rw [ciThen, run_seq, List.cons_append, run_set_cons, if_pos (by rw [ci_has hs.1]; simpa using h1), ih hs.2 t _ _ _ _ h2]
    simp

theorem run_ciRe {β : Type} : ∀ (s : Str), Str.lower s = s → s ≠ [] → ∀ (w pre rest : Str) (caps) (k : St → Option β), Str.lower w = s →
    run (ciRe s) ⟨pre, w ++ rest, caps⟩ k = k ⟨w.reverse ++ pre, rest, caps⟩ := by
  intro s
  induction s with
  | nil => intro _ h; exact absurd rfl h
  | cons x s ih =>
    intro hs _ w pre rest caps k h
    simp only [Str.lower, List.map_cons, List.cons.injEq] at hs
    obtain ⟨c, t, rfl, h1, h2⟩ := lower_cons h
    cases s with
    | nil =>
      have : t = [] := by cases t with | nil => rfl | cons _ _ => cases h2
      subst this
      rw [ciRe, List.cons_append, run_set_cons, if_pos (by rw [ci_has hs.1]; simpa using h1)]
      rfl
    | cons y s =>
      rw [ciRe, run_seq, List.cons_append, run_set_cons, if_pos (by rw [ci_has hs.1]; simpa using h1), ih hs.2 (by simp) t _ _ _ _ h2]
      · simp
      · simp

/-- The closing line is removed. -/
theorem cut_end {A e : Str} (hA : c!"%" ∉ A) (he : ∃ a m b, e = a ++ (m ++ b) ∧ Str.lower a = py"%endblock" ∧ m ≠ [] ∧ Blank m ∧ Str.lower b = py"devel_code") : END_RE.sub [] (A ++ e) = A := by
  have hn : ∀ (pre : Str) (s : Str), s.head? ≠ some 37 → END_RE.matchAt pre s = none := by
    intro pre s h
    rw [END_eq, Pat.matchAt_eq]
    show Option.map _ (run (.seq _ _) _ _) = _
    rw [run_seq]
    cases s with
    | nil => rfl
    | cons c s =>
      rw [run_set_cons, if_neg]
      · rfl
      intro hc
      exact h (by rw [List.head?_cons, cc_eq (by decide) hc])
  have hr : ∀ pre : Str, run END_RE.re ⟨pre, e ++ [], []⟩ some = some ⟨e.reverse ++ pre, [], []⟩ := by
    intro pre
    obtain ⟨a, m, b, rfl, h1, h2, h3, h4⟩ := he
    rw [END_eq, List.append_nil]
    show run (ciThen _ _) _ _ = _
    rw [run_ciThen _ _ (by decide +kernel) _ _ _ _ _ h1, run_seq]
    refine run_plus_all _ 1 m _ b _ _ _ _ (List.length_pos_of_ne_nil h2) ?_ ?_ (by simp) ?_
    · intro c hc
      have := h3 c hc
      simp [CSet.has, CItem.has, this]
    · obtain ⟨c, t, rfl, h, -⟩ := lower_cons h4
      have hc : isSpace c = false := isSpace_of_lower (by rw [h]; decide)
      have hl : isSpace (lowerC c) = false := by rw [h]; decide
      have hu : isSpace (upperC c) = false := by
        rw [Bool.eq_false_iff]
        intro hu
        revert h hu
        simp only [lowerC, upperC, isUpper, isLower, isSpace, Bool.and_eq_true, decide_eq_true_eq, Bool.or_eq_true, beq_iff_eq]
        split <;> split <;> omega
      intro d hd
      cases hd
      simp [CSet.has, CItem.has, hc, hl, hu]
    · have := run_ciRe (py"devel_code") (by decide +kernel) (by decide) b (m.reverse ++ (a.reverse ++ pre)) [] [] some h4
      rw [List.append_nil] at this
      rw [this]
      simp
  have hne : e ≠ [] := by
    obtain ⟨a, m, b, rfl, h1, h2, h3, h4⟩ := he
    simp [h2]
  obtain ⟨x, hx1, hx2, -⟩ := NonLinL.match_of (hr (A.reverse ++ []))
  have := Pat.split_spec END_RE (w0 := A) (l := [(e, [])]) (.cons [] A e [] [] x hne ?_ (by simpa using hx1) hx2 (.nil _ _ ?_)) (by simp [hne])
  · rw [Pat.sub]
    simp only [List.flatMap_cons, List.flatMap_nil, List.append_nil] at this
    rw [this]
    simp [Str.join]
  · intro u w e' hw
    refine hn _ _ fun h => hA ?_
    obtain ⟨d, w, rfl⟩ := List.exists_cons_of_ne_nil hw
    cases h
    rw [e']; simp
  · intro u w e'
    have : w = [] := by simp at e'; exact e'.2
    subst this
    exact hn _ _ (by simp)

theorem BLOCK_eq : DEVEL_BLOCK_RE = ⟨.seq (.group 1 (.rep true 1 none (.set ⟨false, [.range 65 90, .range 97 122, .range 48 57, .ch 95], true⟩))) (.seq (.set (cc 58))
    (.seq (.rep true 0 none (.set ⟨true, [.ch 10], false⟩)) (.seq (.set (cc 58)) (.seq (.set (cc 101)) (.seq (.set (cc 110)) (.seq (.set (cc 100)) (.backref true 1))))))), [], 1⟩ := by
  decide +kernel

theorem no_blocks {T : Str} (h : 58 ∉ T) : DEVEL_BLOCK_RE.finditer T = [] := by
  refine Pat.findFrom_nil _ _ _ _ fun u v e => ?_
  cases hm : DEVEL_BLOCK_RE.matchAt (u.reverse ++ []) v with
  | none => rfl
  | some x =>
    exfalso
    obtain ⟨e2, -, hl, -⟩ := Pat.matchAt_some hm
    rw [BLOCK_eq] at hl
    obtain ⟨a, r, e3, -, x', b, e4, ⟨c, hc, e5⟩, -⟩ := hl
    have : c = 58 := cc_eq (by decide) hc
    exact h (by rw [e, e2, e3, e4, e5, this]; simp)

theorem fields_chars {T : Str} {ws : List Str} (h : Fields T ws) : (∀ c ∈ T, isSpace c = true ∨ ∃ w ∈ ws, c ∈ w) ∧ ws.length ≤ T.length := by
  induction h with
  | nil h => exact ⟨fun c hc => .inl (by simpa using h c hc), by simp⟩
  | @cons g w s ws h1 h2 h3 h4 _ ih =>
    constructor
    · intro c hc
      simp only [List.append_assoc, List.mem_append] at hc
      rcases hc with hc | hc | hc
      · exact .inl (by simpa using h1 c hc)
      · exact .inr ⟨w, by simp, hc⟩
      · rcases ih.1 c hc with h | ⟨v, hv, h⟩
        · exact .inl h
        · exact .inr ⟨v, by simp [hv], h⟩
    · have := List.length_pos_iff.2 h2
      have := ih.2
      simp
      omega

/-- The whole block: the settings are in the dictionary. -/
theorem block {ls : List Str} {wss : List (List DevelWord)} {e : Str} (h : List.Forall₂ DevelWord.Line ls wss) (hok : ∀ w ∈ wss.flatten, w.Ok)
    (he : ∃ a m b, Str.strip e = a ++ (m ++ b) ∧ Str.lower a = py"%endblock" ∧ m ≠ [] ∧ Blank m ∧ Str.lower b = py"devel_code")
    (hn : ((wss.flatten.filterMap DevelWord.pair?).map fun p => normalise_key p.1).Nodup)
    (hval : ∀ v, PropText v → ∃ x, PropValue v x ∧ to_type (determine_type v) (.str v) = .ok x) :
    ∃ D : Dict Key PyVal, parse_devel_code_block ⟨0, 0, ls ++ [e]⟩ = .ok (.dict D) ∧
      (∀ p ∈ wss.flatten.filterMap DevelWord.pair?, ∃ x, PropValue p.2 x ∧ D.get? (.str (normalise_key p.1)) = some x) ∧
      ∀ w, .other w ∈ wss.flatten → (∀ c ∈ w, DevelWord.Letter c) → (∀ p ∈ wss.flatten.filterMap DevelWord.pair?, normalise_key w ≠ normalise_key p.1) →
        D.get? (.str (normalise_key w)) = some .none := by
  obtain ⟨hf, hb⟩ := text_fields h
  generalize hT : ((ls.map Str.strip).flatMap fun l => l ++ [32]) = T at hf hb
  have hchar : ∀ c ∈ T, isSpace c = true ∨ ∃ w ∈ wss.flatten, c ∈ w.text := by
    intro c hc
    rcases (fields_chars hf).1 c hc with h | ⟨w, hw, h⟩
    · exact .inl h
    · obtain ⟨x, hx, rfl⟩ := List.mem_map.1 hw
      exact .inr ⟨x, hx, h⟩
  have hname : ∀ c, DevelWord.NameChar c → c ≠ 58 ∧ c ≠ 61 ∧ c ≠ 37 := by
    intro c hc
    simp [DevelWord.NameChar] at hc
    omega
  have hclean : ∀ c ∈ T, c ≠ 58 ∧ c ≠ 37 := by
    intro c hc
    rcases hchar c hc with h | ⟨w, hw, h⟩
    · constructor <;> rintro rfl <;> simp [isSpace] at h
    · have ho := hok w hw
      cases w with
      | other w =>
        have := ho c h
        simp at this
        omega
      | setting k v =>
        rcases List.mem_append.1 h with h | h
        · have := hname c (ho.1.2 c h); omega
        · rcases List.mem_cons.1 h with rfl | h
          · decide
          · have := ho.2.1.2 c h
            simp at this
            omega
  have hps : ∀ p ∈ wss.flatten.filterMap DevelWord.pair?, (∀ c ∈ p.1, c ≠ 58 ∧ c ≠ 61) ∧ (∀ c ∈ p.2, c ≠ 58 ∧ c ≠ 61) ∧ ∃ x, PropValue p.2 x ∧ to_type (determine_type p.2) (.str p.2) = .ok x := by
    intro p hp
    obtain ⟨w, hw, e⟩ := List.mem_filterMap.1 hp
    have ho := hok w hw
    cases w with
    | other w => cases e
    | setting k v =>
      cases e
      refine ⟨fun c hc => ?_, fun c hc => ?_, hval v ho.2.2⟩
      · have := hname c (ho.1.2 c hc); omega
      · have := ho.2.1.2 c hc
        simp at this
        omega
  have hfind := find_settings wss.flatten hok [] T [] (T.length + 1) hf hb (by simp) (.inr (by simp)) (by
    have : (wss.flatten.filterMap DevelWord.pair?).length ≤ T.length := by
      have h1 := (fields_chars hf).2
      have h2 := List.length_filterMap_le DevelWord.pair? wss.flatten
      rw [List.length_map] at h1
      omega
    omega)
  obtain ⟨d', e1, -, e3, e4⟩ := rest_of _ _ hfind hps hn [] (by intro p _; rfl)
  refine ⟨develPresent (PRESENT_RE.finditer T) d', ?_, fun p hp => ?_, fun w hw hl hne => ?_⟩
  · rw [parse_devel_code_block]
    have : Block.rest ⟨0, 0, ls ++ [e]⟩ = ls ++ [e] := rfl
    rw [this, List.map_append, List.map_cons, List.map_nil, join_snoc, hT, cut_end (fun h => (hclean _ h).2 rfl) he]
    rw [no_blocks (fun h => (hclean _ h).1 rfl), develBlocks]
    show (do let d ← develRest (DEVEL_VAL_RE.finditer T) []; _) = _
    rw [Pat.finditer]
    rw [List.nil_append] at e1
    rw [e1]
    rfl
  · obtain ⟨x, h1, h2⟩ := e3 p hp
    exact ⟨x, h1, present_keeps _ _ _ _ (key_head _) h2⟩
  · obtain ⟨A, s, e, h1, h2, h3, -⟩ := fields_at hf w (List.mem_map.2 ⟨_, hw, rfl⟩)
    refine present_flag _ _ _ (key_head _) (.inl ?_) ?_
    · rw [e4 _ fun p hp h => hne p hp (Key.str.inj h)]
      rfl
    · obtain ⟨x, h4, h5⟩ := found_flag h1 hl h3 A.length A [] (T.length + 1) (le_refl _) (by rw [e]; simp; omega) (by simpa using h2)
      rw [← e] at h4
      exact ⟨x, h4, by rw [h5]⟩

/-- The closing line, without its comment. -/
theorem closing {last : Str} (h : ClosesDevel last) :
    ClosesBlock last ∧ ∃ a m b, Str.strip (Cell.clean last) = a ++ (m ++ b) ∧ Str.lower a = py"%endblock" ∧ m ≠ [] ∧ Blank m ∧ Str.lower b = py"devel_code" := by
  obtain ⟨u, g, a, m, b, g', hu, e, hg, ha, hm, hmb, hb, hg'⟩ := h
  obtain rfl := hu.unique (uncommented_takeWhile _)
  have hlast : ∀ c, (a ++ (m ++ b)).getLast? = some c → isSpace c = false := by
    intro c hc
    have h1 : b ≠ [] := by rintro rfl; cases hb
    have h2 : b.getLast? = some c := by
      rw [← hc, ← List.append_assoc, List.getLast?_append_of_ne_nil _ h1]
    have h3 := lower_last hb
    rw [h2] at h3
    exact isSpace_of_lower (by rw [← Option.some.inj h3]; decide)
  have hhead : ∀ c ∈ (a ++ (m ++ b)).head?, isSpace c = false := by
    obtain ⟨c, t, rfl, h1, -⟩ := lower_cons ha
    intro d hd
    cases hd
    exact isSpace_of_lower (by rw [h1]; decide)
  have hne : a ++ (m ++ b) ≠ [] := by simp [hm]
  constructor
  · obtain ⟨v, hv⟩ : last.takeWhile keepC <+: last := List.takeWhile_prefix _
    rw [e] at hv
    exact ⟨g, a, m ++ b ++ g' ++ v, by rw [← hv]; simp, hg, ha⟩
  · refine ⟨a, m, b, ?_, ha, hm, hmb, hb⟩
    have hc : Cell.clean last = g ++ (a ++ (m ++ b)) := by
      rw [Cell.clean, rstrip_iff]
      refine ⟨⟨g', by rw [e]; simp, hg'⟩, fun c hc => hlast c ?_⟩
      rwa [List.getLast?_append_of_ne_nil _ hne] at hc
    rw [hc]
    have h1 : Str.lstrip (g ++ (a ++ (m ++ b))) = a ++ (m ++ b) := by
      obtain ⟨c, t, hct⟩ := List.exists_cons_of_ne_nil hne
      have hcs := hhead c (by rw [hct]; rfl)
      rw [hct, Str.lstrip]
      clear hc e hu
      induction g with
      | nil => simp [hcs]
      | cons x g ih => simp [hg x (by simp), ih (fun y hy => hg y (by simp [hy]))]
    rw [Str.strip, h1, rstrip_iff]
    exact ⟨⟨[], by simp, by intro c hc; cases hc⟩, hlast⟩

end Devel
end Verif
