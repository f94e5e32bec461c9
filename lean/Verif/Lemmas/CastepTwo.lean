import Verif.Lemmas.CastepFitted
import Verif.Lemmas.CastepBanner
import Mathlib.Data.List.Forall2
/- Two readings of the same text with different filters, side by side. -/
namespace Verif.Castep
open Verif Verif.Spec

theorem forall₂_of_mem {R S : α → β → Prop} {l : List α} {k : List β} (h : List.Forall₂ R l k)
    (hRS : ∀ a ∈ l, ∀ b ∈ k, R a b → S a b) : List.Forall₂ S l k := by
  induction h with
  | nil => exact .nil
  | cons h1 _ ih =>
    exact .cons (hRS _ (by simp) _ (by simp) h1) (ih fun a ha b hb => hRS a (by simp [ha]) b (by simp [hb]))

/-- One branch of both readings keeps the relation and takes the same lines. -/
def StepTwo (a b : Env) (lines : List Str) (R : State → State → Prop) (e : Entry) (sec : Section) : Prop :=
  ∀ line rest h r, (∀ l ∈ line :: rest, l ∈ lines) → sec.grab line rest = .ok (some h, r) →
    ∀ s t s1 t1 r1 r2, R s t → sec.run a h r s = .ok (s1, r1) → sec.run b h r t = .ok (t1, r2) → r1 = r2 ∧ R s1 t1

theorem dispatch_two {a b : Env} {lines : List Str} {R : State → State → Prop} {es : List Entry} {secs : List Section}
    (hf : List.Forall₂ (StepTwo a b lines R) es secs) (hs : ∀ sec ∈ secs, SecOf sec) {line : Str}
    {rest r1 r2 : List Str} {s t s1 t1 : State} (hl : ∀ l ∈ line :: rest, l ∈ lines) (hR : R s t)
    (ha : dispatch a line secs rest s = .ok (s1, r1)) (hb : dispatch b line secs rest t = .ok (t1, r2)) :
    r1 = r2 ∧ R s1 t1 := by
  induction hf with
  | nil => cases ha; cases hb; exact ⟨rfl, hR⟩
  | cons h1 h2 ih =>
    rename_i e sec es secs
    rw [dispatch_cons] at ha hb
    generalize hg : sec.grab line rest = g at ha hb
    match g with
    | .error x => cases ha
    | .ok (none, r) =>
      obtain rfl := (hs sec (by simp)).grab.keeps _ _ _ hg
      exact ih (fun x hx => hs x (by simp [hx])) ha hb
    | .ok (some h, r) => exact h1 _ _ _ _ hl hg _ _ _ _ _ _ hR ha hb

theorem go_two {a b : Env} {lines : List Str} {R : State → State → Prop}
    (hf : List.Forall₂ (StepTwo a b lines R) table sections) : ∀ (text : List Str) (s t s1 t1 : State),
    (∀ l ∈ text, l ∈ lines) → R s t → go a text s = .ok s1 → go b text t = .ok t1 → R s1 t1 := by
  intro text s t s1 t1 hl hR ha hb
  have := go_induct (env := a) (P := fun text s s1 => (∀ l ∈ text, l ∈ lines) → ∀ t t1, R s t →
    go b text t = .ok t1 → R s1 t1) ?_ ?_ text s s1 ha hl t t1 hR hb
  · exact this
  · intro s _ t t1 hR h
    cases h; exact hR
  · intro line rest s s2 rest1 s' hd ⟨u, hu⟩ _ ih hl t t1 hR h
    rw [go_cons] at h
    split at h
    · cases h
    · rename_i t2 rest2 hd2
      obtain ⟨rfl, hR2⟩ := dispatch_two hf sections_of hl hR hd hd2
      exact ih (fun l hl' => hl l (by rw [hu]; simp [hl'])) _ _ hR2 h

/-! ### The same entries -/

variable {K : Key → Bool}

/-- The states agree on the keys. -/
structure Alike (K : Key → Bool) (s t : State) : Prop where
  runs : clean K s.runs = clean K t.runs
  curr : restrict K s.curr = restrict K t.curr
  mix : K (.str (py"initial_positions")) = true → s.mix = t.mix

theorem clean_append (a b : List Run) : clean K (a ++ b) = clean K a ++ clean K b := by
  simp [clean]

theorem clean_one (r r' : Run) (h : restrict K r = restrict K r') : clean K [r] = clean K [r'] := by
  simp [clean, h]

theorem clean_nil_of (r : Run) (h : restrict K r = []) : clean K [r] = [] := by
  simp [clean, h]

theorem clean_push (runs : List Run) (r : Run) :
    clean K (if r.isEmpty then runs else runs ++ [r]) = clean K runs ++ clean K [r] := by
  split
  · rename_i h
    rw [List.isEmpty_iff] at h
    subst h
    simp [clean, restrict]
  · exact clean_append _ _

theorem Alike.newRun {s t : State} (h : Alike K s t) : Alike K (newRun s) (newRun t) := by
  refine ⟨?_, rfl, h.mix⟩
  simp only [Castep.newRun]
  rw [clean_push, clean_push, h.runs, clean_one _ _ h.curr]

theorem Alike.cut {sec : Section} (hs : SecOf sec) {s t : State} (h : Alike K s t) :
    Alike K (sec.cut s) (sec.cut t) := by
  cases hs with
  | run _ _ _ _ _ _ hg hf hc => rcases hc with rfl | rfl; exacts [h, h.newRun]
  | warning => exact h
  | title => exact h
  | cutoff => exact h
  | field => exact h
  | mixture => exact h

theorem step_alike {a b : Env} (hab : Sim a b) {lines : List Str} {e : Entry} {sec : Section} (hf : Fits e sec)
    (hs : SecOf sec) (ha : Apart K a.filters b.filters lines e) :
    StepTwo a b lines (Alike K) e sec := by
  intro line rest h r hl hg s t s1 t1 r1 r2 hR hra hrb
  have hcut := hR.cut hs
  obtain ⟨-, hra⟩ := run_ok hra
  obtain ⟨-, hrb⟩ := run_ok hrb
  generalize sec.cut s = u at *
  generalize sec.cut t = v at *
  have hset : ∀ x y, restrict K x = restrict K y → Alike K { u with curr := x } { v with curr := y } :=
    fun x y h => ⟨hcut.runs, h, hcut.mix⟩
  cases ha with
  | absent hn => exact absurd (hf.opens _ _ _ _ hg) (hn line (hl line (by simp)))
  | agree hag hm =>
    have hw := hf.wants _ _ hag
    rcases hra with ⟨w1, hra⟩ | ⟨w1, rfl, rfl⟩ <;> rcases hrb with ⟨w2, hrb⟩ | ⟨w2, rfl, rfl⟩
    · cases sec with
      | mk name grab cut check wants act =>
      dsimp only at hra hrb
      cases hf.act with
      | run f hr hm hsim hwr =>
        obtain ⟨x, h1, rfl, rfl⟩ := act_onRun (env := a) (h := h) hra
        obtain ⟨y, h2, rfl, rfl⟩ := act_onRun (env := b) (h := h) hrb
        have he : f a h = f b h := by
          rcases hsim with hsim | ⟨rfl, hp⟩
          · exact hsim _ _ hab h
          · exact sim_pseudopot hag hp h
        rw [← he] at h2
        exact ⟨rfl, hset _ _ ((hwr a h).same _ _ _ _ h1 h2 hcut.curr)⟩
      | geom hr hm' hk =>
        obtain ⟨x, h1, rfl, rfl⟩ := act_onRun (env := a) (h := h) hra
        obtain ⟨y, h2, rfl, rfl⟩ := act_onRun (env := b) (h := h) hrb
        have he : geomIteration a h = geomIteration b h := by
          funext r; unfold geomIteration stepData; rw [hab.recur]
        rw [← he] at h2
        refine ⟨rfl, hset _ _ ?_⟩
        rcases hm hm' with hK | hK
        · exact geom_same hK a h _ _ _ _ h1 h2 hcut.curr
        · rw [geom_skips hK a h _ _ h1, geom_skips hK a h _ _ h2, hcut.curr]
      | mixture hr hm' hk =>
        obtain ⟨p, m, h1, rfl, rfl⟩ := act_mixture (env := a) (h := h) hra
        obtain ⟨q, n, h2, rfl, rfl⟩ := act_mixture (env := b) (h := h) hrb
        refine ⟨rfl, hcut.runs, ?_, ?_⟩
        · cases hK : K (.str (py"initial_positions")) with
          | true =>
            rw [hcut.mix hK, h2] at h1
            cases h1
            exact (writes_set (P := fun _ => True) _ trivial _).same _ _ _ _ rfl rfl hcut.curr
          | false =>
            simp only [restrict_set_out _ _ _ hK]
            exact hcut.curr
        · intro hK
          rw [hcut.mix hK, h2] at h1
          cases h1
          rfl
      | warning hr hm' =>
        obtain ⟨m, x, hm1, rfl, h1, rfl⟩ := act_warning (env := a) (h := h) hra
        obtain ⟨n, y, hm2, rfl, h2, rfl⟩ := act_warning (env := b) (h := h) hrb
        rw [hm1] at hm2
        cases hm2
        exact ⟨rfl, hset _ _ ((writes_append (P := fun _ => True) _ trivial _).same _ _ _ _ h1 h2 hcut.curr)⟩
      | title hr hm' =>
        obtain ⟨l, h1, rfl⟩ := act_title (env := a) (h := h) hra
        obtain ⟨l', h2, rfl⟩ := act_title (env := b) (h := h) hrb
        rw [h1] at h2
        cases h2
        exact ⟨rfl, hset _ _ ((writes_set (P := fun _ => True) _ trivial _).same _ _ _ _ rfl rfl hcut.curr)⟩
      | field hr hm' =>
        obtain ⟨l, x, h1, h3, rfl⟩ := act_field (env := a) (h := h) hra
        obtain ⟨l', y, h2, h4, rfl⟩ := act_field (env := b) (h := h) hrb
        rw [h1] at h2
        cases h2
        rw [h3] at h4
        cases h4
        exact ⟨rfl, hset _ _ ((writes_set (P := fun _ => True) _ trivial _).same _ _ _ _ rfl rfl hcut.curr)⟩
      | cutoff hr hm' =>
        obtain ⟨n, l, r3, bl, x, h1, h2, h3, h4, rfl⟩ := act_cutoff (env := a) (h := h) hra
        obtain ⟨n', l', r4, bl', y, h5, h6, h7, h8, rfl⟩ := act_cutoff (env := b) (h := h) hrb
        rw [h1] at h5
        cases h5
        rw [h2] at h6
        cases h6
        rw [h3] at h7
        cases h7
        have he : cutoffRun a bl.data = cutoffRun b bl.data := by
          funext r; unfold cutoffRun; rw [hab.recur]
        rw [← he] at h8
        exact ⟨rfl, hset _ _ ((w_cutoff (P := fun _ => True) (fun _ => trivial) _ _).same _ _ _ _ h4 h8 hcut.curr)⟩
    · rw [w1, w2] at hw; cases hw
    · rw [w1, w2] at hw; cases hw
    · exact ⟨rfl, hcut⟩
  | other hr hk hn =>
    have hrun : ∀ (env : Env) (w w1 : State) (r1 : List Str), sec.act env h r w = .ok (w1, r1) →
        (py"initial_positions" ∈ e.keys → K (.str (py"initial_positions")) = false) →
        r1 = r ∧ w1.runs = w.runs ∧ restrict K w1.curr = restrict K w.curr ∧
        (K (.str (py"initial_positions")) = true → w1.mix = w.mix) := by
      intro env w w1 r1 hact hpos
      cases sec with
      | mk name grab cut check wants act =>
      dsimp only at hact
      cases hf.act with
      | run f hr hm hsim hwr =>
        obtain ⟨x, h1, rfl, rfl⟩ := act_onRun (env := env) (h := h) hact
        refine ⟨rfl, rfl, (hwr env h).skips ?_ _ _ h1, fun _ => rfl⟩
        rintro k (⟨n, hn', rfl⟩ | ⟨l, hl', hnm⟩)
        · exact hk n hn'
        · by_cases hp : e.printed = .no
          · rw [hp] at hnm; exact hnm.elim
          · exact hn k l (hl l (hf.lines hp _ _ _ _ hg l hl')) hnm
      | geom hr hm' hk' =>
        obtain ⟨x, h1, rfl, rfl⟩ := act_onRun (env := env) (h := h) hact
        refine ⟨rfl, rfl, geom_skips (fun n hn => hk n (by rw [hk']; exact hn)) _ _ _ _ h1, fun _ => rfl⟩
      | mixture hr hm' hk' =>
        obtain ⟨p, m, h1, rfl, rfl⟩ := act_mixture (env := env) (h := h) hact
        refine ⟨rfl, rfl, restrict_set_out _ _ _ (hk _ hk'), fun hK => ?_⟩
        rw [hpos hk'] at hK; cases hK
      | warning hr' => rw [hr] at hr'; cases hr'
      | title hr' => rw [hr] at hr'; cases hr'
      | field hr' => rw [hr] at hr'; cases hr'
      | cutoff hr' => rw [hr] at hr'; cases hr'
    have hpos : py"initial_positions" ∈ e.keys → K (.str (py"initial_positions")) = false := hk _
    have side : ∀ (env : Env) (w w1 : State) (r1 : List Str),
        (sec.wants env.filters = true ∧ sec.act env h r w = .ok (w1, r1) ∨
          sec.wants env.filters = false ∧ w1 = w ∧ r1 = r) →
        r1 = r ∧ w1.runs = w.runs ∧ restrict K w1.curr = restrict K w.curr ∧
        (K (.str (py"initial_positions")) = true → w1.mix = w.mix) := by
      rintro env w w1 r1 (⟨-, hact⟩ | ⟨-, rfl, rfl⟩)
      · exact hrun env w w1 r1 hact hpos
      · exact ⟨rfl, rfl, rfl, fun _ => rfl⟩
    obtain ⟨e1, e2, e3, e4⟩ := side a u s1 r1 hra
    obtain ⟨f1, f2, f3, f4⟩ := side b v t1 r2 hrb
    exact ⟨by rw [e1, f1], by rw [e2, f2, hcut.runs], by rw [e3, f3, hcut.curr],
      fun hK => by rw [e4 hK, f4 hK, hcut.mix hK]⟩

theorem fix_alike {types : List (Key × Ty)} : ∀ {r r' r1 r1' : Run}, fix_data_types r types = .ok r1 →
    fix_data_types r' types = .ok r1' → restrict K r = restrict K r' → restrict K r1 = restrict K r1' := by
  induction types with
  | nil => intro r r' r1 r1' h h' e; cases h; cases h'; exact e
  | cons kt types ih =>
    obtain ⟨k, ty⟩ := kt
    have step : ∀ {r r1 : Run}, fix_data_types r ((k, ty) :: types) = .ok r1 →
        ∃ r2, fix_data_types r2 types = .ok r1 ∧ ((r.get? k = none ∧ r2 = r) ∨
          ∃ v w, r.get? k = some v ∧ to_type ty v = .ok w ∧ r2 = r.set k w) := by
      intro r r1 h
      rw [fix_data_types] at h
      split at h
      · rename_i v hv
        obtain ⟨w, h1, h2⟩ := bind_ok h
        exact ⟨_, h2, .inr ⟨v, w, hv, h1, rfl⟩⟩
      · rename_i hv
        exact ⟨r, h, .inl ⟨hv, rfl⟩⟩
    intro r r' r1 r1' h h' e
    obtain ⟨x, h1, h2⟩ := step h
    obtain ⟨y, h3, h4⟩ := step h'
    refine ih h1 h3 ?_
    cases hK : K k with
    | false =>
      have hx : restrict K x = restrict K r := by
        rcases h2 with ⟨-, rfl⟩ | ⟨v, w, -, -, rfl⟩
        · rfl
        · exact restrict_set_out _ _ _ hK
      have hy : restrict K y = restrict K r' := by
        rcases h4 with ⟨-, rfl⟩ | ⟨v, w, -, -, rfl⟩
        · rfl
        · exact restrict_set_out _ _ _ hK
      rw [hx, hy, e]
    | true =>
      have hget : r.get? k = r'.get? k := by rw [← get?_restrict r k hK, e, get?_restrict r' k hK]
      rcases h2 with ⟨g1, rfl⟩ | ⟨v, w, g1, g2, rfl⟩ <;> rcases h4 with ⟨g3, rfl⟩ | ⟨v', w', g3, g4, rfl⟩
      · exact e
      · rw [hget, g3] at g1; cases g1
      · rw [hget, g3] at g1; cases g1
      · rw [hget, g3] at g1
        cases g1
        rw [g2] at g4
        cases g4
        rw [restrict_set_in _ _ _ hK, restrict_set_in _ _ _ hK, e]

theorem finish_alike {s t : State} (h : Alike K s t) {rs ts : List Run} (hs : finish s = .ok rs)
    (ht : finish t = .ok ts) : clean K rs = clean K ts := by
  have side : ∀ {s : State} {rs : List Run}, finish s = .ok rs → ∃ r1, clean K rs = clean K s.runs ++ clean K [r1] ∧
      fix_data_types s.curr [(.str (py"energies"), .float), (.str (py"solvation"), .float)] = .ok r1 := by
    intro s rs hs
    rw [finish] at hs
    split at hs
    · rename_i he
      rw [List.isEmpty_iff] at he
      cases hs
      refine ⟨[], by simp [clean, restrict], ?_⟩
      rw [he]; rfl
    · obtain ⟨r, h1, h2⟩ := bind_ok hs
      cases h2
      exact ⟨r, clean_append _ _, h1⟩
  obtain ⟨x, h1, h2⟩ := side hs
  obtain ⟨y, h3, h4⟩ := side ht
  rw [h1, h3, h.runs, clean_one _ _ (fix_alike h2 h4 h.curr)]

/-- Both readings to the end. -/
theorem parse_alike {order : List Str → List Str} {ops : Ops F64} {F G : Filters} {lines : List Str}
    (hap : ∀ e ∈ table, Apart K F G lines e) {rs ts : List Run} (hF : parse_castep_file order ops F lines = .ok rs)
    (hG : parse_castep_file order ops G lines = .ok ts) : clean K rs = clean K ts := by
  rw [parse_eq] at hF hG
  obtain ⟨s, h1, h2⟩ := bind_ok hF
  obtain ⟨t, h3, h4⟩ := bind_ok hG
  refine finish_alike (go_two (lines := lines) (R := Alike K) ?_ lines {} {} s t (fun _ h => h)
    ⟨rfl, rfl, fun _ => rfl⟩ h1 h3) h2 h4
  refine forall₂_of_mem fits fun e he sec hsec hf => step_alike (a := envOf order ops F) (b := envOf order ops G) ⟨rfl, rfl, rfl⟩ hf (sections_of sec hsec) (hap e he)

/-! ### Only what is asked for -/

/-- The key comes from a section that is asked for. -/
def Comes (F : Filters) (lines : List Str) (k : Key) : Prop :=
  ∃ e ∈ table, Asked F e ∧ ((∃ n ∈ e.keys, k = .str n) ∨ ∃ l ∈ lines, Names e.printed k l)

/-- The keys of the state. -/
structure Only (Q : Key → Prop) (s : State) : Prop where
  runs : ∀ r ∈ s.runs, ∀ k ∈ r.keys, Q k
  curr : ∀ k ∈ s.curr.keys, Q k

theorem Only.newRun {Q : Key → Prop} {s : State} (h : Only Q s) : Only Q (newRun s) := by
  refine ⟨?_, fun k hk => by simp [Castep.newRun, Dict.keys] at hk⟩
  simp only [Castep.newRun]
  split
  · exact h.runs
  · intro r hr
    rcases List.mem_append.1 hr with hr | hr
    · exact h.runs r hr
    · rw [List.mem_singleton.1 hr]; exact h.curr

theorem Only.cut {Q : Key → Prop} {sec : Section} (hs : SecOf sec) {s : State} (h : Only Q s) : Only Q (sec.cut s) := by
  cases hs with
  | run _ _ _ _ _ _ hg hf hc => rcases hc with rfl | rfl; exacts [h, h.newRun]
  | warning => exact h
  | title => exact h
  | cutoff => exact h
  | field => exact h
  | mixture => exact h

theorem Wr.upper {P : Key → Prop} (ws : Wr) (hw : ∀ kg ∈ ws, P kg.1) : ∀ r r1, ws.run r = .ok r1 →
    ∀ k ∈ r1.keys, k ∈ r.keys ∨ P k := by
  induction ws with
  | nil => intro r r1 h; cases h; exact fun _ h => .inl h
  | cons kg ws ih =>
    obtain ⟨k, g⟩ := kg
    intro r r1 h x hx
    rw [Wr.run] at h
    split at h
    · cases h
    rcases ih (fun y hy => hw y (by simp [hy])) _ _ h x hx with h1 | h1
    · rcases (Dict.mem_keys_set _ _ _ _).1 h1 with rfl | h1
      · exact .inr (hw (x, g) (by simp))
      · exact .inl h1
    · exact .inr h1

theorem Writes.upper {P : Key → Prop} {p : Run → PyM Run} (h : Writes P p) {r r1 : Run} (hp : p r = .ok r1) :
    ∀ k ∈ r1.keys, k ∈ r.keys ∨ P k := by
  obtain ⟨ws, h1, h2⟩ := h
  exact Wr.upper ws h1 _ _ (h2 _ _ hp)

theorem keys_erase (r : Run) (x : Key) : ∀ k ∈ (r.erase x).keys, k ∈ r.keys := by
  induction r with
  | nil => intro k hk; exact hk
  | cons kv r ih =>
    intro k hk
    rw [Dict.erase] at hk
    split at hk
    · exact List.mem_cons_of_mem _ hk
    · rcases List.mem_cons.1 hk with rfl | hk
      · exact List.mem_cons_self
      · exact List.mem_cons_of_mem _ (ih k hk)

theorem keys_erases (ks : List Key) : ∀ r : Run, ∀ k ∈ (ks.foldl (fun r k => r.erase k) r).keys, k ∈ r.keys := by
  induction ks with
  | nil => intro r k hk; exact hk
  | cons x ks ih => intro r k hk; exact keys_erase _ _ _ (ih _ k hk)

theorem geom_upper {env : Env} {h : Hit} {r r1 : Run} (hr : geomIteration env h r = .ok r1) :
    ∀ k ∈ r1.keys, k ∈ r.keys ∨ k = .str (py"geom_opt") := by
  intro k hk
  obtain ⟨g, data, g', h1, h2, h3, rfl⟩ := geomIteration_ok hr
  rcases (Dict.mem_keys_set _ _ _ _).1 hk with hk | hk
  · exact .inr hk
  · have h4 : k ∈ (ensure r (.str (py"geom_opt"))).keys := by
      unfold firstIteration at hk
      split at hk
      · exact hk
      · exact keys_erases _ _ _ hk
    rw [ensure] at h4
    split at h4
    · exact .inl h4
    · rcases (Dict.mem_keys_set _ _ _ _).1 h4 with h4 | h4
      · exact .inr h4
      · exact .inl h4

theorem step_only {a : Env} {lines : List Str} {e : Entry} (he : e ∈ table) {sec : Section} (hf : Fits e sec)
    (hs : SecOf sec) : StepTwo a a lines (fun s t => s = t ∧ Only (Comes a.filters lines) s) e sec := by
  rintro line rest h r hl hg s _ s1 t1 r1 r2 ⟨rfl, hR⟩ hra hrb
  rw [hra] at hrb
  cases hrb
  refine ⟨rfl, rfl, ?_⟩
  have hcut := hR.cut hs
  obtain ⟨-, hra⟩ := run_ok hra
  generalize sec.cut s = u at *
  rcases hra with ⟨w1, hra⟩ | ⟨w1, rfl, rfl⟩
  swap
  · exact hcut
  have hask := hf.asked _ w1
  have hkey : ∀ n ∈ e.keys, Comes a.filters lines (.str n) := fun n hn => ⟨e, he, hask, .inl ⟨n, hn, rfl⟩⟩
  have hset : ∀ x : Run, (∀ k ∈ x.keys, k ∈ u.curr.keys ∨ Comes a.filters lines k) →
      Only (Comes a.filters lines) { u with curr := x } := fun x hx =>
    ⟨hcut.runs, fun k hk => (hx k hk).elim (hcut.curr k) id⟩
  cases sec with
  | mk name grab cut check wants act =>
  dsimp only at hra
  cases hf.act with
  | run f hr hm hsim hwr =>
    obtain ⟨x, h1, rfl, rfl⟩ := act_onRun (env := a) (h := h) hra
    refine hset x fun k hk => ?_
    rcases (hwr a h).upper h1 k hk with hk | ⟨n, hn, rfl⟩ | ⟨l, hl', hnm⟩
    · exact .inl hk
    · exact .inr (hkey n hn)
    · by_cases hp : e.printed = .no
      · rw [hp] at hnm; exact hnm.elim
      · exact .inr ⟨e, he, hask, .inr ⟨l, hl l (hf.lines hp _ _ _ _ hg l hl'), hnm⟩⟩
  | geom hr hm' hk =>
    obtain ⟨x, h1, rfl, rfl⟩ := act_onRun (env := a) (h := h) hra
    refine hset x fun k hk' => ?_
    rcases geom_upper h1 k hk' with h | rfl
    · exact .inl h
    · exact .inr (hkey _ (by rw [hk]; decide))
  | mixture hr hm' hk =>
    obtain ⟨p, m, h1, rfl, rfl⟩ := act_mixture (env := a) (h := h) hra
    refine ⟨hcut.runs, fun k hk' => ?_⟩
    rcases (Dict.mem_keys_set _ _ _ _).1 hk' with rfl | hk'
    · exact hkey _ hk
    · exact hcut.curr k hk'
  | warning hr hm' hk =>
    obtain ⟨m, x, hm1, rfl, h1, rfl⟩ := act_warning (env := a) (h := h) hra
    refine hset x fun k hk' => ?_
    rcases (writes_append (P := fun k => k = .str (py"warning")) _ rfl _).upper h1 k hk' with h | rfl
    · exact .inl h
    · exact .inr (hkey _ hk)
  | title hr hm' hk =>
    obtain ⟨l, h1, rfl⟩ := act_title (env := a) (h := h) hra
    refine hset _ fun k hk' => ?_
    rcases (Dict.mem_keys_set _ _ _ _).1 hk' with rfl | hk'
    · exact .inr (hkey _ hk)
    · exact .inl hk'
  | field hr hm' hk =>
    obtain ⟨l, x, h1, h3, rfl⟩ := act_field (env := a) (h := h) hra
    refine hset _ fun k hk' => ?_
    rcases (Dict.mem_keys_set _ _ _ _).1 hk' with rfl | hk'
    · exact .inr (hkey _ hk)
    · exact .inl hk'
  | cutoff hr hm' hk =>
    obtain ⟨n, l, r3, bl, x, h1, h2, h3, h4, rfl⟩ := act_cutoff (env := a) (h := h) hra
    refine hset x fun k _ => .inr ⟨e, he, hask, .inr ⟨line, hl line (by simp), ?_⟩⟩
    rw [hk]
    trivial

theorem parse_only {order : List Str → List Str} {ops : Ops F64} {F : Filters} {lines : List Str} {rs : List Run}
    (hF : parse_castep_file order ops F lines = .ok rs) : ∀ r ∈ rs, ∀ k ∈ r.keys, Comes F lines k := by
  rw [parse_eq] at hF
  obtain ⟨s, h1, h2⟩ := bind_ok hF
  obtain ⟨-, h⟩ := go_two (lines := lines) (R := fun s t => s = t ∧ Only (Comes F lines) s)
    (forall₂_of_mem fits fun e he sec hsec hf =>
      step_only (a := envOf order ops F) he hf (sections_of sec hsec)) lines {} {} s s (fun _ h => h)
    ⟨rfl, by simp, by simp [Dict.keys]⟩ h1 h1
  rw [finish] at h2
  split at h2
  · cases h2; exact h.runs
  · obtain ⟨r, h3, h4⟩ := bind_ok h2
    cases h4
    intro x hx
    rcases List.mem_append.1 hx with hx | hx
    · exact h.runs x hx
    · rw [List.mem_singleton.1 hx, keys_fix h3]
      exact h.curr

/-! ### More entries -/

theorem mem_keys_iff (r : Run) (k : Key) : k ∈ r.keys ↔ r.mem k = true := by
  rw [mem_iff]
  cases h : r.get? k with
  | none => simp [(Dict.get?_eq_none _ _).1 h]
  | some v => simp [Dict.keys]; exact ⟨v, Dict.mem_of_get? _ _ _ h⟩

theorem speciesRows_keys (unpack : List Str → PyM (Str × Str)) (name : Str) (f : Str → PyM PyVal)
    (rows : List (List Str)) : ∀ r r1, speciesRows unpack name f r rows = .ok r1 →
    .str (py"species_properties") ∈ r1.keys := by
  induction rows with
  | nil =>
    intro r r1 h
    cases h
    rw [mem_keys_iff]
    simp only [ensure]
    split
    · rename_i h; exact h
    · rw [mem_iff, Dict.get?_set_self]; rfl
  | cons ws rows ih =>
    intro r r1 h
    obtain ⟨kv, -, h⟩ := bind_ok h
    obtain ⟨v, -, h⟩ := bind_ok h
    obtain ⟨r2, -, h⟩ := bind_ok h
    exact ih _ _ h

theorem pseudopot_grows {a b : Env} {h : Hit} {r r' r1 r1' : Run} (h1 : pseudopot a h r = .ok r1)
    (h2 : pseudopot b h r' = .ok r1') (e : Sub r r') : Sub r1 r1' := by
  intro k hk
  obtain ⟨ws, hw, hr⟩ := w_pseudopot (P := fun k => k = .str (py"species_properties")) rfl a h
  rcases Wr.upper (P := fun k => k = .str (py"species_properties")) ws hw _ _ (hr _ _ h1) k hk with hk | rfl
  · exact (w_pseudopot (P := fun _ => True) trivial b h).adds h2 _ (e k hk)
  · obtain ⟨rows, -, h2⟩ := bind_ok h2
    exact speciesRows_keys _ _ _ _ _ _ h2

/-- The second reading has at least the entries of the first. -/
structure Grows (s t : State) : Prop where
  runs : List.SublistForall₂ Sub s.runs t.runs
  curr : Sub s.curr t.curr

theorem sublist_append {R : α → β → Prop} {a : List α} {b : List β} (h : List.SublistForall₂ R a b) :
    ∀ {c : List α} {d : List β}, List.SublistForall₂ R c d → List.SublistForall₂ R (a ++ c) (b ++ d) := by
  induction h with
  | nil =>
    rename_i l
    intro c d h
    induction l with
    | nil => exact h
    | cons x l ih => exact .cons_right ih
  | cons h1 _ ih => intro c d h; exact .cons h1 (ih h)
  | cons_right _ ih => intro c d h; exact .cons_right (ih h)

theorem sub_isEmpty {r r' : Run} (h : Sub r r') (he : r'.isEmpty = true) : r.isEmpty = true := by
  cases r with
  | nil => rfl
  | cons kv r =>
    have := h kv.1 (by simp [Dict.keys])
    rw [List.isEmpty_iff] at he
    subst he
    simp [Dict.keys] at this

theorem Grows.newRun {s t : State} (h : Grows s t) : Grows (newRun s) (newRun t) := by
  refine ⟨?_, fun _ h => h⟩
  simp only [Castep.newRun]
  cases hs : s.curr.isEmpty with
  | true =>
    cases ht : t.curr.isEmpty with
    | true => exact h.runs
    | false =>
      simp only [if_true, Bool.false_eq_true, if_false]
      have := sublist_append h.runs (c := []) (d := [t.curr]) .nil
      simpa using this
  | false =>
    cases ht : t.curr.isEmpty with
    | true => rw [sub_isEmpty h.curr ht] at hs; cases hs
    | false => exact sublist_append h.runs (.cons h.curr .nil)

theorem Grows.cut {sec : Section} (hs : SecOf sec) {s t : State} (h : Grows s t) : Grows (sec.cut s) (sec.cut t) := by
  cases hs with
  | run _ _ _ _ _ _ hg hf hc => rcases hc with rfl | rfl; exacts [h, h.newRun]
  | warning => exact h
  | title => exact h
  | cutoff => exact h
  | field => exact h
  | mixture => exact h

theorem step_grows {a b : Env} (hab : Sim a b) (hFG : ∀ x, Filters.has x a.filters = true → Filters.has x b.filters = true)
    {lines : List Str} {e : Entry} {sec : Section} (hf : Fits e sec) (hs : SecOf sec)
    (hr : e.reads = true → Agree a.filters b.filters e ∨ ∀ l ∈ lines, ¬ Opens e l)
    (hm : e.moves = true → ∀ l ∈ lines, ¬ Opens e l) : StepTwo a b lines Grows e sec := by
  intro line rest h r hl hg s t s1 t1 r1 r2 hR hra hrb
  have hcut := hR.cut hs
  have hop : ¬ ∀ l ∈ lines, ¬ Opens e l := fun hn => hn line (hl line (by simp)) (hf.opens _ _ _ _ hg)
  obtain ⟨-, hra⟩ := run_ok hra
  obtain ⟨-, hrb⟩ := run_ok hrb
  generalize sec.cut s = u at *
  generalize sec.cut t = v at *
  rcases hra with ⟨w1, hra⟩ | ⟨w1, rfl, rfl⟩ <;> rcases hrb with ⟨w2, hrb⟩ | ⟨w2, rfl, rfl⟩
  · cases sec with
    | mk name grab cut check wants act =>
    dsimp only at hra hrb
    cases hf.act with
    | run f hr hm hsim hwr =>
      obtain ⟨x, h1, rfl, rfl⟩ := act_onRun (env := a) (h := h) hra
      obtain ⟨y, h2, rfl, rfl⟩ := act_onRun (env := b) (h := h) hrb
      refine ⟨rfl, hcut.runs, ?_⟩
      rcases hsim with hsim | ⟨rfl, hp⟩
      · rw [← hsim _ _ hab h] at h2
        exact (hwr a h).grows h1 h2 hcut.curr
      · exact pseudopot_grows h1 h2 hcut.curr
    | geom _ hm' => exact absurd (hm hm') hop
    | mixture hr hm' hk =>
      obtain ⟨p, m, h1, rfl, rfl⟩ := act_mixture (env := a) (h := h) hra
      obtain ⟨q, n, h2, rfl, rfl⟩ := act_mixture (env := b) (h := h) hrb
      refine ⟨rfl, hcut.runs, fun k hk => ?_⟩
      rcases (Dict.mem_keys_set _ _ _ _).1 hk with hk | hk
      · exact (Dict.mem_keys_set _ _ _ _).2 (.inl hk)
      · exact (Dict.mem_keys_set _ _ _ _).2 (.inr (hcut.curr k hk))
    | warning hr' hm' =>
      obtain ⟨m, x, hm1, rfl, h1, rfl⟩ := act_warning (env := a) (h := h) hra
      obtain ⟨n, y, hm2, rfl, h2, rfl⟩ := act_warning (env := b) (h := h) hrb
      rw [hm1] at hm2
      cases hm2
      exact ⟨rfl, hcut.runs, (writes_append (P := fun _ => True) _ trivial _).grows h1 h2 hcut.curr⟩
    | title hr' hm' =>
      obtain ⟨l, h1, rfl⟩ := act_title (env := a) (h := h) hra
      obtain ⟨l', h2, rfl⟩ := act_title (env := b) (h := h) hrb
      rw [h1] at h2
      cases h2
      exact ⟨rfl, hcut.runs, (writes_set (P := fun _ => True) _ trivial _).grows rfl rfl hcut.curr⟩
    | field hr' hm' =>
      obtain ⟨l, x, h1, h3, rfl⟩ := act_field (env := a) (h := h) hra
      obtain ⟨l', y, h2, h4, rfl⟩ := act_field (env := b) (h := h) hrb
      rw [h1] at h2
      cases h2
      rw [h3] at h4
      cases h4
      exact ⟨rfl, hcut.runs, (writes_set (P := fun _ => True) _ trivial _).grows rfl rfl hcut.curr⟩
    | cutoff hr' hm' =>
      obtain ⟨n, l, r3, bl, x, h1, h2, h3, h4, rfl⟩ := act_cutoff (env := a) (h := h) hra
      obtain ⟨n', l', r4, bl', y, h5, h6, h7, h8, rfl⟩ := act_cutoff (env := b) (h := h) hrb
      rw [h1] at h5
      cases h5
      rw [h2] at h6
      cases h6
      rw [h3] at h7
      cases h7
      have he : cutoffRun a bl.data = cutoffRun b bl.data := by
        funext r; unfold cutoffRun; rw [hab.recur]
      rw [← he] at h8
      exact ⟨rfl, hcut.runs, (w_cutoff (P := fun _ => True) (fun _ => trivial) _ _).grows h4 h8 hcut.curr⟩
  · rw [hf.mono _ _ hFG w1] at w2; cases w2
  · have hrd : e.reads = false := by
      cases hr' : e.reads with
      | false => rfl
      | true =>
        rcases hr hr' with h1 | h1
        · rw [hf.wants _ _ h1, w2] at w1; cases w1
        · exact absurd h1 hop
    cases sec with
    | mk name grab cut check wants act =>
    dsimp only at hrb
    cases hf.act with
    | run f hr hm hsim hwr =>
      obtain ⟨y, h2, rfl, rfl⟩ := act_onRun (env := b) (h := h) hrb
      exact ⟨rfl, hcut.runs, fun k hk => (hwr b h).adds h2 k (hcut.curr k hk)⟩
    | geom _ hm' => exact absurd (hm hm') hop
    | mixture hr hm' hk =>
      obtain ⟨q, n, h2, rfl, rfl⟩ := act_mixture (env := b) (h := h) hrb
      exact ⟨rfl, hcut.runs, fun k hk => (Dict.mem_keys_set _ _ _ _).2 (.inr (hcut.curr k hk))⟩
    | warning hr' => rw [hrd] at hr'; cases hr'
    | title hr' => rw [hrd] at hr'; cases hr'
    | field hr' => rw [hrd] at hr'; cases hr'
    | cutoff hr' => rw [hrd] at hr'; cases hr'
  · exact ⟨rfl, hcut⟩

theorem finish_grows {s t : State} (h : Grows s t) {rs ts : List Run} (hs : finish s = .ok rs)
    (ht : finish t = .ok ts) : List.SublistForall₂ Sub rs ts := by
  rw [finish] at hs ht
  have fixed : ∀ {r r1 : Run} {types}, fix_data_types r types = .ok r1 → Sub r r1 ∧ Sub r1 r := by
    intro r r1 types h
    have := keys_fix h
    exact ⟨fun k hk => by rw [this]; exact hk, fun k hk => by rw [← this]; exact hk⟩
  split at hs
  · cases hs
    split at ht
    · cases ht; exact h.runs
    · obtain ⟨y, h3, h4⟩ := bind_ok ht
      cases h4
      have := sublist_append h.runs (c := []) (d := [y]) .nil
      simpa using this
  · rename_i hne
    obtain ⟨x, h1, h2⟩ := bind_ok hs
    cases h2
    split at ht
    · rename_i he
      exact absurd (sub_isEmpty h.curr he) hne
    · obtain ⟨y, h3, h4⟩ := bind_ok ht
      cases h4
      refine sublist_append h.runs (.cons ?_ .nil)
      exact fun k hk => (fixed h3).1 k (h.curr k ((fixed h1).2 k hk))

/-- Both readings to the end. -/
theorem parse_grows {order : List Str → List Str} {ops : Ops F64} {F G : Filters} {lines : List Str}
    (hFG : ∀ x, Filters.has x F = true → Filters.has x G = true)
    (hr : ∀ e ∈ table, e.reads = true → Agree F G e ∨ ∀ l ∈ lines, ¬ Opens e l)
    (hm : ∀ e ∈ table, e.moves = true → ∀ l ∈ lines, ¬ Opens e l) {rs ts : List Run}
    (hF : parse_castep_file order ops F lines = .ok rs) (hG : parse_castep_file order ops G lines = .ok ts) :
    List.SublistForall₂ Sub rs ts := by
  rw [parse_eq] at hF hG
  obtain ⟨s, h1, h2⟩ := bind_ok hF
  obtain ⟨t, h3, h4⟩ := bind_ok hG
  refine finish_grows (go_two (lines := lines) (R := Grows) ?_ lines {} {} s t (fun _ h => h)
    ⟨.nil, fun _ h => h⟩ h1 h3) h2 h4
  exact forall₂_of_mem fits fun e he sec hsec hf =>
    step_grows (a := envOf order ops F) (b := envOf order ops G) ⟨rfl, rfl, rfl⟩ hFG hf (sections_of sec hsec) (hr e he) (hm e he)

end Verif.Castep
