import Verif.Lemmas.LineTables
import Verif.Lemmas.AtomRe
import Verif.Lemmas.DeltaScf
import Verif.Lemmas.Words
import Verif.Spec.Pspot
import Verif.Model.CellParam
/- Definitions of pseudopotentials. -/
namespace Verif.Cell.Pspot
open Verif Re NumRe AtomRe Spec Cell

abbrev FPN : Re := .alt (.seq (plus dig) (.seq (.rep true 0 (some 1) (.set (ch 46))) (star dig))) (.seq (star dig) (.seq (.set (ch 46)) (plus dig)))
abbrev pm : CSet := cset [.ch 43, .ch 45]
abbrev typS : CSet := cset [.ch 85, .ch 78, .ch 71, .ch 72, .ch 76, .ch 80]
abbrev eR : Re := .seq (.alt (.seq (.set (ch 61)) (.rep true 0 (some 1) (.set pm))) (.set pm)) (.group 3 FPN)
abbrev dR : Re := .seq (.set (ch 64)) (.group 4 FPN)
abbrev PRJ : Re := .seq (.group 1 (.set typS)) (.seq (.rep true 0 (some 1) (.group 2 FPN)) (.seq (.rep true 0 (some 1) eR) (.rep true 0 (some 1) dR)))

theorem PROJ_eq : Res.PSPOT_PROJ_RE = ⟨PRJ, [(py"type", 1), (py"beta_rc", 2), (py"beta_e", 3), (py"beta_delta", 4)], 4⟩ := by decide +kernel

abbrev notTyp : CSet := ⟨true, [.ch 85, .ch 78, .ch 71, .ch 72, .ch 76, .ch 80], false⟩
theorem FIND_eq : PROJ_RE = ⟨.seq (.set typS) (star notTyp), [], 0⟩ := by decide +kernel

/-- The end of an unsigned number. -/
def Ends (s : Str) : Prop := ∀ c, s.head? = some c → isDigit c = false ∧ c ≠ 46

theorem has_dig (c : Nat) : dig.has c = isDigit c := by simp [CSet.has, CItem.has]

theorem stops_dig {s : Str} (h : Ends s) : Stops dig s := fun c hc => by rw [has_dig]; exact (h c hc).1
theorem stops_dot {s : Str} (h : Ends s) : Stops (ch 46) s := fun c hc => by rw [has_ch]; simp [(h c hc).2]

theorem run_opt_none {r : Re} {s : St} {k : St → Option β} (h : ∀ k' : St → Option β, run r s k' = Option.none) : run (.rep true 0 (some 1) r) s k = k s := by
  rw [run_rep_greedy, if_neg (by simp), if_pos rfl, h, Option.none_or]

theorem run_opt_some {r : Re} {s t : St} {k : St → Option β} {x : β} (hlt : t.post.length < s.post.length) (hk : k t = some x)
    (h : ∀ k' : St → Option β, k' t = some x → run r s k' = some x) : run (.rep true 0 (some 1) r) s k = some x := by
  rw [run_rep_greedy, if_neg (by simp), h _ _, Option.some_or]
  rw [if_pos hlt, run_rep_greedy, if_pos (by rfl), if_pos (by rfl), Option.none_or, hk]

theorem run_FPN (n : Numeral) (hn : n.Unsigned) (pre rest : Str) (caps) (k : St → Option β) (x : β) (hr : Ends rest)
    (hk : k ⟨n.text.reverse ++ pre, rest, caps⟩ = some x) : run FPN ⟨pre, n.text ++ rest, caps⟩ k = some x := by
  obtain ⟨⟨h1, h2, h3, -⟩, -, h4, h5⟩ := hn
  obtain ⟨sg, ip, fr, ex⟩ := n
  dsimp only at h1 h2 h3 h4 h5
  subst h4 h5
  have hd : ∀ {w : Str}, Numeral.AllDigits w → ∀ c ∈ w, dig.has c = true := fun hw c hc => by rw [has_dig]; exact (isDigit_iff c).2 (hw c hc)
  rw [run_alt]
  cases ip with
  | nil =>
    cases fr with
    | none => exact absurd rfl h3
    | some f =>
      have hf : f ≠ [] := by simpa using h3
      have e : Numeral.text ⟨Option.none, [], some f, Option.none⟩ = 46 :: f := by simp [Numeral.text, Numeral.signText, Numeral.fracText, Numeral.expText]
      rw [e] at hk ⊢
      rw [run_seq, run_plus_stop _ _ _ _ _ _ _ _ (by intro c hc; cases hc; rfl), Option.none_or, run_seq, run_star_stop _ _ _ _ _ _ _ (by intro c hc; cases hc; rfl),
        run_seq, List.cons_append, run_set_cons, if_pos (by decide)]
      refine run_plus_all dig 1 f _ rest Option.none _ _ _ (List.length_pos_iff.2 hf) (hd h2) (stops_dig hr) (by simp) ?_
      simpa using hk
  | cons d ip =>
    rw [run_seq]
    have hs : Stops dig (Numeral.fracText fr ++ rest) := by
      cases fr with
      | none => exact stops_dig hr
      | some f => intro c hc; cases hc; rfl
    have e : Numeral.text ⟨Option.none, d :: ip, fr, Option.none⟩ ++ rest = (d :: ip) ++ (Numeral.fracText fr ++ rest) := by
      simp [Numeral.text, Numeral.signText, Numeral.expText]
    rw [e, run_plus_all dig 1 (d :: ip) pre (Numeral.fracText fr ++ rest) Option.none caps _ x (by simp) (hd h1) hs (by simp) ?_, Option.some_or]
    rw [run_seq]
    cases fr with
    | none =>
      rw [Numeral.fracText, List.nil_append, run_opt_none fun k' => run_set_stops k' (stops_dot hr), run_star_stop _ _ _ _ _ _ _ (stops_dig hr)]
      rw [← hk]
      simp [Numeral.text, Numeral.signText, Numeral.fracText, Numeral.expText]
    | some f =>
      rw [Numeral.fracText]
      refine run_opt_some (t := ⟨46 :: ((d :: ip).reverse ++ pre), f ++ rest, caps⟩) (by simp) ?_ ?_
      · refine run_star_all dig f _ rest Option.none _ _ _ (hd h2) (stops_dig hr) (by simp) ?_
        rw [← hk]
        simp [Numeral.text, Numeral.signText, Numeral.fracText, Numeral.expText]
      · intro k' hk'
        rw [List.cons_append, run_set_cons, if_pos (by decide), hk']

theorem run_FPN_none (pre s : Str) (caps) (k : St → Option β) (hs : Ends s) : run FPN ⟨pre, s, caps⟩ k = Option.none := by
  rw [run_alt, run_seq, run_plus_stop _ _ _ _ _ _ _ _ (stops_dig hs), Option.none_or, run_seq, run_star_stop _ _ _ _ _ _ _ (stops_dig hs), run_seq,
    run_set_stops _ (stops_dot hs)]

theorem ends_delta (d : Option Numeral) : Ends (Proj.deltaText d) := by
  cases d with
  | none => intro c hc; cases hc
  | some n => intro c hc; cases hc; exact ⟨rfl, by decide⟩

theorem ends_energy {marks : List Str} (hm : ∀ u ∈ marks, u ∈ Proj.PLUS ++ Proj.MINUS) {e : Option (Str × Numeral)} (he : ∀ x, e = some x → x.1 ∈ marks ∧ x.2.Unsigned) (d : Option Numeral) :
    Ends (Proj.energyText e ++ Proj.deltaText d) := by
  cases e with
  | none => exact ends_delta d
  | some x =>
    obtain ⟨u, n⟩ := x
    have := hm u (he _ rfl).1
    simp only [Proj.PLUS, Proj.MINUS, List.cons_append, List.nil_append, List.mem_cons, List.not_mem_nil, or_false] at this
    rcases this with rfl | rfl | rfl | rfl | rfl <;> (intro c hc; cases hc; exact ⟨rfl, by decide⟩)

theorem unsigned_head {n : Numeral} (hn : n.Unsigned) : ∃ c r, n.text = c :: r ∧ pm.has c = false := by
  obtain ⟨⟨h1, h2, h3, -⟩, -, h4, h5⟩ := hn
  obtain ⟨sg, ip, fr, ex⟩ := n
  dsimp only at h1 h2 h3 h4 h5
  subst h4 h5
  cases ip with
  | nil =>
    cases fr with
    | none => exact absurd rfl h3
    | some f => exact ⟨46, f, by simp [Numeral.text, Numeral.signText, Numeral.fracText, Numeral.expText], rfl⟩
  | cons d ip =>
    refine ⟨d, _, by simp [Numeral.text, Numeral.signText]; rfl, ?_⟩
    have := h1 d (by simp)
    simp [CSet.has, CItem.has]
    omega

/-- The captures of a projector. -/
def caps (p : Proj) : List (Nat × Str) :=
  (p.delta.toList.map fun n => (4, n.text)) ++ ((p.energy.toList.map fun e => (3, e.2.text)) ++ ((p.rc.toList.map fun n => (2, n.text)) ++ [(1, [p.typ])]))

theorem has_typ (c : Nat) : typS.has c = true ↔ c ∈ py"UNGHLP" := by
  simp [CSet.has, CItem.has]

theorem proj_match {marks : List Str} (hm : ∀ u ∈ marks, u ∈ Proj.PLUS ++ Proj.MINUS) {p : Proj} (hp : p.Ok marks) :
    ∃ m, Res.PSPOT_PROJ_RE.match_ p.text = some m ∧ m.caps = caps p ∧ m.names = [(py"type", 1), (py"beta_rc", 2), (py"beta_e", 3), (py"beta_delta", 4)] := by
  obtain ⟨typ, rc, en, de⟩ := p
  obtain ⟨h1, h2, h3, h4⟩ := hp
  dsimp only at h1 h2 h3 h4
  rw [PROJ_eq]
  refine Gets.match_ (p := ⟨PRJ, [(py"type", 1), (py"beta_rc", 2), (py"beta_e", 3), (py"beta_delta", 4)], 4⟩) (C := (· = _)) ?_
  have end_ : ∀ (pre : Str) (cp : List (Nat × Str)), ∃ t, run (.rep true 0 (some 1) dR) ⟨pre, Proj.deltaText de, cp⟩ some = some t ∧
      t.caps = (de.toList.map fun n => (4, n.text)) ++ cp := by
    intro pre cp
    cases de with
    | none =>
      refine ⟨_, run_opt_none fun k' => ?_, rfl⟩
      rw [Proj.deltaText, run_seq, run_set_nil]
    | some n =>
      refine ⟨⟨n.text.reverse ++ (64 :: pre), [], (4, n.text) :: cp⟩, ?_, rfl⟩
      refine run_opt_some (t := ⟨n.text.reverse ++ (64 :: pre), [], (4, n.text) :: cp⟩) (by simp [Proj.deltaText]) rfl ?_
      intro k' hk'
      rw [Proj.deltaText, run_seq, run_set_cons, if_pos (by decide), run_group]
      have := run_FPN n (h4 n rfl) (64 :: pre) [] cp (fun t => k' { t with caps := (4, St.upTo ⟨64 :: pre, n.text, cp⟩ t) :: t.caps })
        ⟨n.text.reverse ++ (64 :: pre), [], (4, n.text) :: cp⟩ (by intro c hc; cases hc) (by
          rw [← hk']
          simp [St.upTo])
      rwa [List.append_nil] at this
  have mid : ∀ (pre : Str) (cp : List (Nat × Str)), ∃ t, run (.rep true 0 (some 1) eR) ⟨pre, Proj.energyText en ++ Proj.deltaText de, cp⟩ (fun t => run (.rep true 0 (some 1) dR) t some) = some t ∧
      t.caps = (de.toList.map fun n => (4, n.text)) ++ ((en.toList.map fun e => (3, e.2.text)) ++ cp) := by
    intro pre cp
    cases en with
    | none =>
      obtain ⟨t, e1, e2⟩ := end_ pre cp
      refine ⟨t, ?_, e2⟩
      rw [Proj.energyText, List.nil_append, run_opt_none, e1]
      intro k'
      cases de with
      | none => rw [Proj.deltaText, run_seq, run_alt, run_seq, run_set_nil, run_set_nil]; rfl
      | some n => rw [Proj.deltaText, run_seq, run_alt, run_seq, run_set_cons, if_neg (by decide), run_set_cons, if_neg (by decide)]; rfl
    | some e =>
      obtain ⟨u, n⟩ := e
      obtain ⟨t, e1, e2⟩ := end_ (n.text.reverse ++ (u.reverse ++ pre)) ((3, n.text) :: cp)
      refine ⟨t, ?_, e2⟩
      have hn := (h3 _ rfl).2
      obtain ⟨c, r, ec, hc⟩ := unsigned_head hn
      refine run_opt_some (t := ⟨n.text.reverse ++ (u.reverse ++ pre), Proj.deltaText de, (3, n.text) :: cp⟩) ?_ e1 ?_
      · simp [Proj.energyText, ec]; omega
      intro k' hk'
      have num : ∀ pre', pre' = u.reverse ++ pre → run (.group 3 FPN) ⟨pre', n.text ++ Proj.deltaText de, cp⟩ k' = some t := by
        rintro pre' rfl
        rw [run_group]
        refine run_FPN n hn _ _ _ _ _ (ends_delta de) ?_
        rw [← hk']
        simp [St.upTo]
      have := hm u (h3 _ rfl).1
      simp only [Proj.PLUS, Proj.MINUS, List.cons_append, List.nil_append, List.mem_cons, List.not_mem_nil, or_false] at this
      rw [Proj.energyText, run_seq, run_alt, run_seq, List.append_assoc]
      rcases this with rfl | rfl | rfl | rfl | rfl
      · rw [List.cons_append, run_set_cons, if_pos (by decide), run_opt_none, List.nil_append, num _ (by simp), Option.some_or]
        intro k''
        rw [ec, List.nil_append, List.cons_append, run_set_cons, if_neg (by rw [hc]; simp)]
      · rw [List.cons_append, run_set_cons, if_pos (by decide), run_opt_some (t := ⟨43 :: 61 :: pre, n.text ++ Proj.deltaText de, cp⟩) (by simp) (num _ (by simp)), Option.some_or]
        intro k'' hk''
        rw [List.cons_append, run_set_cons, if_pos (by decide), List.nil_append, hk'']
      · rw [List.cons_append, run_set_cons, if_neg (by decide), Option.none_or, run_set_cons, if_pos (by decide), List.nil_append, num _ (by simp)]
      · rw [List.cons_append, run_set_cons, if_pos (by decide), run_opt_some (t := ⟨45 :: 61 :: pre, n.text ++ Proj.deltaText de, cp⟩) (by simp) (num _ (by simp)), Option.some_or]
        intro k'' hk''
        rw [List.cons_append, run_set_cons, if_pos (by decide), List.nil_append, hk'']
      · rw [List.cons_append, run_set_cons, if_neg (by decide), Option.none_or, run_set_cons, if_pos (by decide), List.nil_append, num _ (by simp)]
  show ∃ t, _ ∧ _
  rw [Proj.text, run_seq, run_group, run_set_cons, if_pos ((has_typ typ).2 h1), run_seq]
  dsimp only
  have start : ∀ (pre : Str) (cp : List (Nat × Str)), ∃ t, run (.rep true 0 (some 1) (.group 2 FPN)) ⟨pre, Proj.rcText rc ++ (Proj.energyText en ++ Proj.deltaText de), cp⟩
      (fun t => run (.seq (.rep true 0 (some 1) eR) (.rep true 0 (some 1) dR)) t some) = some t ∧
      t.caps = (de.toList.map fun n => (4, n.text)) ++ ((en.toList.map fun e => (3, e.2.text)) ++ ((rc.toList.map fun n => (2, n.text)) ++ cp)) := by
    intro pre cp
    simp only [run_seq]
    cases rc with
    | none =>
      obtain ⟨t, e1, e2⟩ := mid pre cp
      refine ⟨t, ?_, e2⟩
      rw [Proj.rcText, List.nil_append, run_opt_none, e1]
      intro k'
      rw [run_group]
      exact run_FPN_none _ _ _ _ (ends_energy hm h3 de)
    | some n =>
      obtain ⟨t, e1, e2⟩ := mid (n.text.reverse ++ pre) ((2, n.text) :: cp)
      refine ⟨t, ?_, e2⟩
      obtain ⟨c, r, ec, -⟩ := unsigned_head (h2 n rfl)
      refine run_opt_some (t := ⟨n.text.reverse ++ pre, Proj.energyText en ++ Proj.deltaText de, (2, n.text) :: cp⟩) (by simp [Proj.rcText, ec]; omega) e1 ?_
      intro k' hk'
      rw [Proj.rcText, run_group]
      refine run_FPN n (h2 n rfl) _ _ _ _ _ (ends_energy hm h3 de) ?_
      rw [← hk']
      simp [St.upTo]
  obtain ⟨t, e1, e2⟩ := start [typ] [(1, [typ])]
  refine ⟨t, ?_, ?_⟩
  · simpa [St.upTo] using e1
  · rw [e2, caps]

/-! ### Taking projectors apart -/

theorem notTyp_has (c : Nat) : notTyp.has c = true ↔ c ∉ py"UNGHLP" := by
  simp [CSet.has, CItem.has]

theorem num_chars {n : Numeral} (hn : n.Unsigned) : ∀ c ∈ n.text, (48 ≤ c ∧ c ≤ 57) ∨ c = 46 := by
  obtain ⟨⟨h1, h2, h3, -⟩, -, h4, h5⟩ := hn
  obtain ⟨sg, ip, fr, ex⟩ := n
  dsimp only at h1 h2 h3 h4 h5
  subst h4 h5
  intro c hc
  simp only [Numeral.text, Numeral.signText, Numeral.expText, List.nil_append, List.append_nil, List.mem_append] at hc
  rcases hc with hc | hc
  · exact .inl (h1 c hc)
  · cases fr with
    | none => cases hc
    | some f =>
      rcases List.mem_cons.1 hc with rfl | hc
      · exact .inr rfl
      · exact .inl (h2 c hc)

/-- The characters of a projector after the first. -/
def tailOf (p : Proj) : Str := Proj.rcText p.rc ++ (Proj.energyText p.energy ++ Proj.deltaText p.delta)

theorem tail_chars {marks : List Str} (hm : ∀ u ∈ marks, u ∈ Proj.PLUS ++ Proj.MINUS) {p : Proj} (hp : p.Ok marks) :
    ∀ c ∈ tailOf p, (48 ≤ c ∧ c ≤ 57) ∨ c ∈ py".=+-@" := by
  obtain ⟨typ, rc, en, de⟩ := p
  obtain ⟨h1, h2, h3, h4⟩ := hp
  dsimp only at h1 h2 h3 h4
  have num : ∀ {n : Numeral}, n.Unsigned → ∀ c ∈ n.text, (48 ≤ c ∧ c ≤ 57) ∨ c ∈ py".=+-@" := fun hn c hc => by
    rcases num_chars hn c hc with h | rfl
    · exact .inl h
    · exact .inr (by decide)
  intro c hc
  simp only [tailOf, List.mem_append] at hc
  rcases hc with hc | hc | hc
  · cases rc with
    | none => cases hc
    | some n => exact num (h2 n rfl) c hc
  · cases en with
    | none => cases hc
    | some e =>
      rcases List.mem_append.1 hc with hc | hc
      · have := hm e.1 (h3 e rfl).1
        right
        generalize e.1 = u at this hc
        simp only [Proj.PLUS, Proj.MINUS, List.cons_append, List.nil_append, List.mem_cons, List.not_mem_nil, or_false] at this
        rcases this with rfl | rfl | rfl | rfl | rfl <;> simp at hc <;> simp [hc] <;> rcases hc with rfl | rfl <;> simp
      · exact num (h3 e rfl).2 c hc
  · cases de with
    | none => cases hc
    | some n =>
      rcases List.mem_cons.1 hc with rfl | hc
      · exact .inr (by decide)
      · exact num (h4 n rfl) c hc

theorem findall_projs {marks : List Str} (hm : ∀ u ∈ marks, u ∈ Proj.PLUS ++ Proj.MINUS) {ps : List Proj} (hp : ∀ p ∈ ps, p.Ok marks) :
    PROJ_RE.findall (ps.flatMap Proj.text) = ps.map Proj.text := by
  rw [Pat.findall, Pat.finditer]
  suffices h : ∀ (ps : List Proj), (∀ p ∈ ps, p.Ok marks) → ∀ (fuel : Nat) (pre : Str), (ps.flatMap Proj.text).length < fuel →
      (PROJ_RE.findFrom fuel pre (ps.flatMap Proj.text)).map (·.whole) = ps.map Proj.text from h ps hp _ _ (Nat.lt_succ_self _)
  intro ps
  induction ps with
  | nil =>
    intro _ fuel pre hf
    cases fuel with
    | zero => cases hf
    | succ fuel =>
      have : PROJ_RE.searchFrom pre [] = Option.none := by
        rw [Pat.searchFrom, Pat.matchAt_eq, FIND_eq, run_seq, run_set_nil]; rfl
      rw [List.flatMap_nil, Pat.findFrom, this]; rfl
  | cons p ps ih =>
    intro hp fuel pre hf
    cases fuel with
    | zero => cases hf
    | succ fuel =>
      have hpk := hp p (by simp)
      have hr : Stops notTyp (ps.flatMap Proj.text) := by
        cases ps with
        | nil => intro c hc; cases hc
        | cons q ps =>
          intro c hc
          cases hc
          have := (hp q (by simp)).1
          rw [Bool.eq_false_iff]
          intro h
          exact (notTyp_has _).1 h this
      have hx : PROJ_RE.matchAt ([].reverse ++ pre) (p.text ++ ps.flatMap Proj.text) =
          some ⟨pre.reverse, p.text, ps.flatMap Proj.text, [], [], 0⟩ := by
        rw [Pat.matchAt_eq, FIND_eq]
        have : run (.seq (.set typS) (star notTyp)) ⟨pre, p.text ++ ps.flatMap Proj.text, []⟩ some = some ⟨p.text.reverse ++ pre, ps.flatMap Proj.text, []⟩ := by
          rw [Proj.text, List.cons_append, run_seq, run_set_cons, if_pos ((has_typ _).2 hpk.1)]
          refine run_star_all notTyp (tailOf p) _ _ Option.none _ _ _ ?_ hr (by simp) ?_
          · intro c hc
            rw [notTyp_has]
            rcases tail_chars hm hpk c hc with h | h
            · intro h'
              simp at h'
              omega
            · clear hc; revert c; decide
          · simp [tailOf]
        rw [List.reverse_nil, List.nil_append]
        dsimp only
        rw [this]
        simp [St.upTo]
      have := Pat.findFrom_cons PROJ_RE fuel pre [] p.text (ps.flatMap Proj.text) _ (by simp [Proj.text]) (by
        intro u v e hv
        obtain ⟨rfl, rfl⟩ := List.append_eq_nil_iff.1 e.symm
        exact absurd rfl hv) hx rfl
      rw [List.nil_append] at this
      rw [List.flatMap_cons, this, List.map_cons, List.map_cons, ih (fun q hq => hp q (by simp [hq]))]
      rw [List.flatMap_cons, List.length_append] at hf
      have : p.text.length ≠ 0 := by simp [Proj.text]
      omega

/-- The captured parts by name. -/
def parts (p : Proj) : Dict Key PyVal :=
  [(.str (py"type"), .str [p.typ]), (.str (py"beta_rc"), optStr (p.rc.map Numeral.text)), (.str (py"beta_e"), optStr (p.energy.map fun e => e.2.text)),
    (.str (py"beta_delta"), optStr (p.delta.map Numeral.text))]

/-- What is reported of the parts. -/
def entries (rd : Numeral → F64) (p : Proj) : Dict Key PyVal :=
  (.str (py"type"), .str [p.typ]) :: ((p.rc.toList.map fun n => (.str (py"beta_rc"), .float (rd n))) ++
    ((p.energy.toList.map fun e => (.str (py"beta_e"), .float (rd e.2))) ++ p.delta.toList.map fun n => (.str (py"beta_delta"), .float (rd n))))

theorem proj_group {p : Proj} {m : Match} (e2 : m.caps = caps p) (e3 : m.names = [(py"type", 1), (py"beta_rc", 2), (py"beta_e", 3), (py"beta_delta", 4)]) : groupVals m = parts p := by
  rw [groupVals, Match.groupdict, e3]
  simp only [Match.group, e2, caps, parts]
  cases p.rc <;> cases p.energy <;> cases p.delta <;> rfl

theorem proj_fix {rd : Numeral → F64} (hrd : ∀ n : Numeral, n.Valid → n.InRange → parse_float_or_rational n.text = .ok (rd n)) {marks : List Str} {p : Proj} (hp : p.Ok marks) :
    fix_data_types (strip_nones (parts p) (some [.str (py"beta_delta"), .str (py"beta_e"), .str (py"beta_rc")]))
      [(.str (py"beta_delta"), .float), (.str (py"beta_e"), .float), (.str (py"beta_rc"), .float)] = .ok (entries rd p) := by
  obtain ⟨-, h2, h3, h4⟩ := hp
  unfold parts entries
  have t : ∀ {n : Numeral}, n.Unsigned → to_type .float (.str n.text) = .ok (.float (rd n)) := fun hn => LineTab.toFloat (hrd _ hn.1 hn.2.1)
  obtain ⟨typ, rc, en, de⟩ := p
  dsimp only at h2 h3 h4 ⊢
  cases rc with
  | none =>
    cases en with
    | none =>
      cases de with
      | none => rfl
      | some d => simp [optStr, strip_nones, fix_data_types, Dict.get?, Dict.set, t (h4 d rfl)]; rfl
    | some e =>
      cases de with
      | none => simp [optStr, strip_nones, fix_data_types, Dict.get?, Dict.set, t (h3 e rfl).2]; rfl
      | some d => simp [optStr, strip_nones, fix_data_types, Dict.get?, Dict.set, t (h3 e rfl).2, t (h4 d rfl)]; rfl
  | some r =>
    cases en with
    | none =>
      cases de with
      | none => simp [optStr, strip_nones, fix_data_types, Dict.get?, Dict.set, t (h2 r rfl)]; rfl
      | some d => simp [optStr, strip_nones, fix_data_types, Dict.get?, Dict.set, t (h2 r rfl), t (h4 d rfl)]; rfl
    | some e =>
      cases de with
      | none => simp [optStr, strip_nones, fix_data_types, Dict.get?, Dict.set, t (h2 r rfl), t (h3 e rfl).2]; rfl
      | some d => simp [optStr, strip_nones, fix_data_types, Dict.get?, Dict.set, t (h2 r rfl), t (h3 e rfl).2, t (h4 d rfl)]; rfl

theorem projectors_cons {w : Str} {l : List Str} {m : Match} {d : Dict Key PyVal} {vs : List PyVal} (h : Res.PSPOT_PROJ_RE.match_ w = some m)
    (hf : fix_data_types (strip_nones (groupVals m) (some [.str (py"beta_delta"), .str (py"beta_e"), .str (py"beta_rc")]))
      [(.str (py"beta_delta"), .float), (.str (py"beta_e"), .float), (.str (py"beta_rc"), .float)] = .ok d)
    (hl : projectors false l = .ok vs) : projectors false (w :: l) = .ok (.dict d :: vs) := by
  have hp : projector false w = .ok (.dict d) := by
    unfold projector
    rw [h]
    dsimp only
    rw [if_neg Bool.false_ne_true, hf]
    rfl
  rw [projectors] at hl ⊢
  rw [mapM', hp]
  simp only [Castep.Delta.ok_bind]
  rw [hl]
  rfl

theorem projectors_ok {rd : Numeral → F64} (hrd : ∀ n : Numeral, n.Valid → n.InRange → parse_float_or_rational n.text = .ok (rd n))
    {marks : List Str} (hm : ∀ u ∈ marks, u ∈ Proj.PLUS ++ Proj.MINUS) : ∀ (ps : List Proj) (_ : ∀ p ∈ ps, p.Ok marks),
    projectors false (ps.map Proj.text) = .ok (ps.map (Proj.value rd))
  | [], _ => rfl
  | p :: ps, hp => by
    obtain ⟨m, e1, e2, e3⟩ := proj_match hm (hp p (by simp))
    have hf := proj_fix hrd (hp p (by simp))
    rw [← proj_group e2 e3] at hf
    exact projectors_cons e1 hf (projectors_ok hrd hm ps fun q hq => hp q (by simp [hq]))

theorem beta_ok {rd : Numeral → F64} (hrd : ∀ n : Numeral, n.Valid → n.InRange → parse_float_or_rational n.text = .ok (rd n))
    {marks : List Str} (hm : ∀ u ∈ marks, u ∈ Proj.PLUS ++ Proj.MINUS) {b : BetaFn} (hb : b.Ok marks) :
    parse_beta_function b.text = .ok (b.value rd) := by
  obtain ⟨o, sh, ps⟩ := b
  obtain ⟨h1, h2, h3⟩ := hb
  dsimp only at h1 h2 h3
  rw [parse_beta_function, BetaFn.text, List.drop_succ_cons, List.drop_succ_cons, List.drop_zero, findall_projs hm h3, projectors_ok hrd hm _ h3]
  simp only [Castep.Delta.ok_bind]
  have ho : intAt ((48 + o) :: (48 + sh) :: ps.flatMap Proj.text) 0 = .ok (o : Int) := by
    show pyInt [48 + o] = _
    have : o = 0 ∨ o = 1 ∨ o = 2 ∨ o = 3 ∨ o = 4 ∨ o = 5 ∨ o = 6 ∨ o = 7 ∨ o = 8 ∨ o = 9 := by omega
    rcases this with rfl | rfl | rfl | rfl | rfl | rfl | rfl | rfl | rfl | rfl <;> rfl
  have hs : intAt ((48 + o) :: (48 + sh) :: ps.flatMap Proj.text) 1 = .ok (sh : Int) := by
    show pyInt [48 + sh] = _
    have : sh = 0 ∨ sh = 1 ∨ sh = 2 ∨ sh = 3 := by omega
    rcases this with rfl | rfl | rfl | rfl <;> rfl
  rw [ho, hs]
  simp only [Castep.Delta.ok_bind]
  have : sh = 0 ∨ sh = 1 ∨ sh = 2 ∨ sh = 3 := by omega
  rcases this with rfl | rfl | rfl | rfl <;> rfl

end Verif.Cell.Pspot
