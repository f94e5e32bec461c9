import Verif.Lemmas.CastepLoop
/- The branches of the main loop of `parse_castep_file` one by one: what a branch takes from the text, text appended
to the file, the depth of the recursion, the runs before. -/
namespace Verif.Castep
open Verif

/-- Environments that agree on recursive calls on at most `n` lines. -/
structure EnvEq (n : Nat) (a b : Env) : Prop where
  filters : a.filters = b.filters
  order : a.order = b.order
  ops : a.ops = b.ops
  recur : ∀ F l, l.length ≤ n → a.recur F l = b.recur F l

theorem EnvEq.mono {n k : Nat} {a b : Env} (h : EnvEq n a b) (hk : k ≤ n) : EnvEq k a b :=
  ⟨h.filters, h.order, h.ops, fun F l hl => h.recur F l (by omega)⟩

/-- The action makes recursive calls only on the lines of the block after the first. -/
def LocalRun (f : Env → Hit → Run → PyM Run) : Prop :=
  ∀ a b h r, EnvEq (h.block.length - 1) a b → f a h r = f b h r

theorem local_stepData {a b : Env} {block : List Str} (e : EnvEq (block.length - 1) a b) :
    stepData a block = stepData b block := by
  unfold stepData
  cases block with
  | nil => rfl
  | cons x l =>
    show (do let runs ← a.recur Filters.HIGH l; let data ← get_only runs; pure (stepAliases data)) =
      (do let runs ← b.recur Filters.HIGH l; let data ← get_only runs; pure (stepAliases data))
    rw [e.recur _ _ (by simp)]

theorem local_mdStep : LocalRun mdStep := by
  intro a b h r e
  unfold mdStep
  rw [local_stepData e]

theorem local_geomIteration : LocalRun geomIteration := by
  intro a b h r e
  unfold geomIteration
  rw [local_stepData e]

theorem local_pseudopot : LocalRun pseudopot := by
  intro a b h r e
  unfold pseudopot
  rw [e.filters]

theorem local_external : LocalRun external := by
  intro a b h r e
  unfold external
  rw [e.order]

theorem local_raman : LocalRun fun env => push (py"raman") (process_raman env.ops) env := by
  intro a b h r e
  show push (py"raman") (process_raman a.ops) b h r = push (py"raman") (process_raman b.ops) b h r
  rw [e.ops]

/-- The branches of the table. -/
inductive SecOf : Section → Prop
  | run (name g cut check wants f) (hg : GrabOf g) (hf : LocalRun f) (hc : cut = id ∨ cut = newRun) :
      SecOf ⟨name, g, cut, check, wants, onRun f⟩
  | warning (name wants) : SecOf ⟨name, takeMatch WARNING_RE, id, fun _ => .ok (), wants, warning⟩
  | title (name p wants) : SecOf ⟨name, takeMatch p, id, fun _ => .ok (), wants, title⟩
  | cutoff (name p wants) : SecOf ⟨name, takeSearch p, id, fun _ => .ok (), wants, cutoff⟩
  | field (name p wants) : SecOf ⟨name, takeLine p, id, fun _ => .ok (), wants, appliedField⟩
  | mixture (name s e n wants) (hs : s.re.spaceable = false) :
      SecOf ⟨name, takeBlock s e n false, id, fun _ => .ok (), wants, mixture⟩

set_option maxRecDepth 8000 in
attribute [local irreducible] takeBlock takeLine takeMatch takeSearch takeMd takeFinal onRun warning title cutoff
  appliedField mixture mdStep geomIteration pseudopot external newRun in
theorem sections_of : ∀ sec ∈ sections, SecOf sec := by
  unfold sections
  repeat' refine List.forall_mem_cons.2 ⟨?_, ?_⟩
  all_goals first
    | refine SecOf.run _ _ _ _ _ _ ?_ ?_ ?_
      · first
        | exact GrabOf.block _ _ _ (by decide +kernel)
        | exact GrabOf.line _
        | exact GrabOf.match_ _
        | exact GrabOf.search _
        | exact GrabOf.md
        | exact GrabOf.final
      · first
        | exact local_mdStep
        | exact local_geomIteration
        | exact local_pseudopot
        | exact local_external
        | exact local_raman
        | exact fun _ _ _ _ _ => rfl
      · first | exact .inl rfl | exact .inr rfl
    | exact SecOf.warning _ _
    | exact SecOf.title _ _ _
    | exact SecOf.cutoff _ _ _
    | exact SecOf.field _ _ _
    | exact SecOf.mixture _ _ _ _ _ (by decide +kernel)
    | simp

theorem SecOf.grab {sec : Section} (h : SecOf sec) : GrabOf sec.grab := by
  cases h with
  | run _ _ _ _ _ _ hg _ _ => exact hg
  | warning => exact .match_ _
  | title => exact .match_ _
  | cutoff => exact .search _
  | field => exact .line _
  | mixture _ _ _ _ _ hs => exact .block _ _ _ hs

/-- A branch after its condition. -/
def Section.run (sec : Section) (env : Env) (h : Hit) (rest : List Str) (s : State) : PyM (State × List Str) :=
  match sec.check h with
  | .error e => .error e
  | .ok () => if sec.wants env.filters then sec.act env h rest (sec.cut s) else .ok (sec.cut s, rest)

theorem dispatch_cons (env : Env) (line : Str) (sec : Section) (secs : List Section) (rest : List Str) (s : State) :
    dispatch env line (sec :: secs) rest s =
      match sec.grab line rest with
      | .error e => .error e
      | .ok (none, rest) => dispatch env line secs rest s
      | .ok (some h, rest) => sec.run env h rest s := rfl

/-! ### What an action takes -/

theorem warnLines_takes (indent : Str) (first : Bool) (l : List Str) :
    ∃ t, l = t ++ (warnLines indent first l).2 := by
  induction l generalizing first with
  | nil => exact ⟨[], rfl⟩
  | cons x l ih =>
    rw [warnLines]
    split
    · cases first
      · exact ⟨[], rfl⟩
      · exact ⟨[x], rfl⟩
    · obtain ⟨t, ht⟩ := ih false
      refine ⟨x :: t, ?_⟩
      simp only [List.cons_append]
      rw [← ht]

theorem warnLines_extends (indent : Str) (first : Bool) (l more : List Str)
    (h : ∃ x ∈ l, (Str.strip x).isEmpty = true) :
    warnLines indent first (l ++ more) = ((warnLines indent first l).1, (warnLines indent first l).2 ++ more) := by
  induction l generalizing first with
  | nil => simp at h
  | cons x l ih =>
    rw [List.cons_append, warnLines, warnLines]
    split
    · cases first <;> rfl
    · rename_i hx
      obtain ⟨y, hy, he⟩ := h
      rcases List.mem_cons.1 hy with rfl | hy
      · simp [he] at hx
      · rw [ih false ⟨y, hy, he⟩]

theorem bind_ok {α β : Type} {x : PyM α} {f : α → PyM β} {b : β} (h : (x >>= f) = .ok b) :
    ∃ a, x = .ok a ∧ f a = .ok b := by
  cases x with
  | error e => cases h
  | ok a => exact ⟨a, rfl, h⟩

theorem nextLine_ok {l rest : List Str} {x : Str} (h : nextLine l = .ok (x, rest)) : l = x :: rest := by
  cases l with
  | nil => cases h
  | cons y l => cases h; rfl

theorem act_title {env : Env} {h : Hit} {rest rest' : List Str} {s s' : State}
    (ha : title env h rest s = .ok (s', rest')) :
    ∃ l, rest = l :: rest' ∧
      s' = { s with curr := s.curr.set (.str (py"title")) (.str (Str.strip l)) } := by
  obtain ⟨⟨l, r⟩, h1, h2⟩ := bind_ok ha
  cases h2
  exact ⟨l, nextLine_ok h1, rfl⟩

theorem act_field {env : Env} {h : Hit} {rest rest' : List Str} {s s' : State}
    (ha : appliedField env h rest s = .ok (s', rest')) :
    ∃ l v, rest = l :: rest' ∧ numbersOf l = .ok v ∧
      s' = { s with curr := s.curr.set (.str (py"applied_field")) v } := by
  obtain ⟨⟨l, r⟩, h1, h2⟩ := bind_ok ha
  obtain ⟨v, h3, h4⟩ := bind_ok h2
  cases h4
  exact ⟨l, v, nextLine_ok h1, h3, rfl⟩

/-- What follows the block in `cutoff`. -/
def cutoffRun (env : Env) (block : List Str) (r : Run) : PyM Run := do
  let runs ← env.recur (Filters.HIGH ||| Filters.SCF) block
  let data ← get_only runs
  let (scf, data) ← popItem data (py"scf")
  let (energies, data) ← popItem data (py"energies")
  let r := r.set (.str (py"bsc_energies")) energies
  let (a, b) ← splitLast scf
  let r := (r.set (.str (py"scf")) a).set (.str (py"bsc_scf")) b
  return updateDict r data

/-- The number of cut-off energies. -/
def cutoffCount (h : Hit) : PyM Int := do
  let m ← h.match_
  pyInt ((m.group 1).getD [])

theorem cutoff_eq (env : Env) (h : Hit) (rest : List Str) (s : State) :
    cutoff env h rest s = (cutoffCount h >>= fun n => nextLine rest >>= fun x =>
      match Block.from_re [] x.2 (fun _ => true) (found SCF_END_RE) (n * 3) false with
      | (.error e, _) => .error e
      | (.ok b, rest) => cutoffRun env b.data s.curr >>= fun r => .ok ({ s with curr := r }, rest)) := by
  unfold cutoff cutoffCount
  cases h.match_ with
  | error e => rfl
  | ok m =>
    show (pyInt _ >>= _) = (pyInt _ >>= _)
    cases pyInt ((m.group 1).getD []) with
    | error e => rfl
    | ok n =>
      show (nextLine rest >>= _) = (nextLine rest >>= _)
      cases nextLine rest with
      | error e => rfl
      | ok x =>
        simp only [bind, Except.bind]
        generalize Block.from_re [] x.2 (fun _ => true) (found SCF_END_RE) (n * 3) false = y
        obtain ⟨e | b, rest'⟩ := y
        · rfl
        · simp only [cutoffRun]
          cases env.recur (Filters.HIGH ||| Filters.SCF) b.data with
          | error e => rfl
          | ok runs =>
            show (get_only runs >>= _) = (get_only runs >>= _) >>= _
            cases get_only runs with
            | error e => rfl
            | ok data =>
              show (popItem data _ >>= _) = (popItem data _ >>= _) >>= _
              cases popItem data (py"scf") with
              | error e => rfl
              | ok p =>
                show (popItem p.2 _ >>= _) = (popItem p.2 _ >>= _) >>= _
                cases popItem p.2 (py"energies") with
                | error e => rfl
                | ok q =>
                  show (splitLast p.1 >>= _) = (splitLast p.1 >>= _) >>= _
                  cases splitLast p.1 with
                  | error e => rfl
                  | ok w => rfl

theorem act_cutoff {env : Env} {h : Hit} {rest rest' : List Str} {s s' : State}
    (ha : cutoff env h rest s = .ok (s', rest')) :
    ∃ n l rest1 b r, cutoffCount h = .ok n ∧ rest = l :: rest1 ∧
      Block.from_re [] rest1 (fun _ => true) (found SCF_END_RE) (n * 3) false = (.ok b, rest') ∧
      cutoffRun env b.data s.curr = .ok r ∧ s' = { s with curr := r } := by
  rw [cutoff_eq] at ha
  obtain ⟨n, h1, h2⟩ := bind_ok ha
  obtain ⟨⟨l, r1⟩, h3, h4⟩ := bind_ok h2
  dsimp only at h4
  split at h4
  · cases h4
  · rename_i b rest2 hb
    obtain ⟨r, h5, h6⟩ := bind_ok h4
    cases h6
    exact ⟨n, l, r1, b, r, h1, nextLine_ok h3, hb, h5, rfl⟩

theorem act_warning {env : Env} {h : Hit} {rest rest' : List Str} {s s' : State}
    (ha : warning env h rest s = .ok (s', rest')) :
    ∃ m r, h.m = some m ∧ rest' = (warnLines ((m.group 1).getD []) true rest).2 ∧
      MdGeom.appendTo s.curr (.str (py"warning"))
        (.str (Str.strip h.line ++ (warnLines ((m.group 1).getD []) true rest).1)) = .ok r ∧
      s' = { s with curr := r } := by
  obtain ⟨m, h1, h2⟩ := bind_ok ha
  have hm : h.m = some m := by
    rw [Hit.match_] at h1
    cases hm : h.m with
    | none => rw [hm] at h1; cases h1
    | some x => rw [hm] at h1; cases h1; rfl
  obtain ⟨r, h3, h4⟩ := bind_ok h2
  cases h4
  exact ⟨m, r, hm, rfl, h3, rfl⟩

theorem act_mixture {env : Env} {h : Hit} {rest rest' : List Str} {s s' : State}
    (ha : mixture env h rest s = .ok (s', rest')) :
    ∃ pos mix, foldLines mixtureLine ([], s.mix) h.block = .ok (pos, mix) ∧ rest' = rest ∧
      s' = { s with curr := s.curr.set (.str (py"initial_positions")) (.dict pos), mix := mix } := by
  obtain ⟨⟨pos, mix⟩, h1, h2⟩ := bind_ok ha
  cases h2
  exact ⟨pos, mix, h1, rfl, rfl⟩

theorem act_onRun {f} {env : Env} {h : Hit} {rest rest' : List Str} {s s' : State}
    (ha : onRun f env h rest s = .ok (s', rest')) :
    ∃ r, f env h s.curr = .ok r ∧ rest' = rest ∧ s' = { s with curr := r } := by
  rw [onRun] at ha
  split at ha
  · cases ha
  · rename_i r hr
    cases ha
    exact ⟨r, hr, rfl, rfl⟩

/-- Cases of a branch. -/
theorem run_ok {sec : Section} {env : Env} {h : Hit} {rest rest' : List Str} {s s' : State}
    (hr : sec.run env h rest s = .ok (s', rest')) :
    sec.check h = .ok () ∧
      ((sec.wants env.filters = true ∧ sec.act env h rest (sec.cut s) = .ok (s', rest')) ∨
       (sec.wants env.filters = false ∧ s' = sec.cut s ∧ rest' = rest)) := by
  rw [Section.run] at hr
  split at hr
  · cases hr
  · rename_i hc
    refine ⟨hc, ?_⟩
    split at hr
    · rename_i hw; exact .inl ⟨hw, hr⟩
    · rename_i hw
      cases hr
      exact .inr ⟨by simpa using hw, rfl, rfl⟩

theorem run_takes {sec : Section} (hs : SecOf sec) {env : Env} {h : Hit} {rest rest' : List Str} {s s' : State}
    (hr : sec.run env h rest s = .ok (s', rest')) : ∃ t, rest = t ++ rest' := by
  obtain ⟨-, ⟨-, ha⟩ | ⟨-, -, rfl⟩⟩ := run_ok hr
  · cases hs with
    | run _ _ _ _ _ _ hg hf hc => obtain ⟨-, -, rfl, -⟩ := act_onRun (env := env) (h := h) ha; exact ⟨[], rfl⟩
    | warning =>
      obtain ⟨m, -, -, rfl, -⟩ := act_warning (env := env) (h := h) ha
      exact warnLines_takes _ _ _
    | title => obtain ⟨l, rfl, -⟩ := act_title (env := env) (h := h) ha; exact ⟨[l], rfl⟩
    | cutoff =>
      obtain ⟨n, l, r1, b, r, -, rfl, hb, -⟩ := act_cutoff (env := env) (h := h) ha
      obtain ⟨t, rfl, -⟩ := from_re_ok _ _ _ _ _ _ _ hb
      exact ⟨l :: t, rfl⟩
    | field => obtain ⟨l, v, rfl, -⟩ := act_field (env := env) (h := h) ha; exact ⟨[l], rfl⟩
    | mixture => obtain ⟨-, -, -, rfl, -⟩ := act_mixture (env := env) (h := h) ha; exact ⟨[], rfl⟩
  · exact ⟨[], rfl⟩

/-! ### More text after -/

theorem NL_strip : (Str.strip NL).isEmpty = true := by decide +kernel

theorem run_extends {sec : Section} (hs : SecOf sec) {env : Env} {line : Str} {h : Hit} {rest0 rest rest' : List Str}
    {s s' : State} (hc : (line :: rest0).getLast? = some NL) (hg : sec.grab line rest0 = .ok (some h, rest))
    (hr : sec.run env h rest s = .ok (s', rest')) (more : List Str) :
    sec.run env h (rest ++ more) s = .ok (s', rest' ++ more) := by
  obtain ⟨hch, ⟨hw, ha⟩ | ⟨hw, rfl, rfl⟩⟩ := run_ok hr
  · rw [Section.run, hch]
    simp only [hw, if_true]
    cases hs with
    | run _ _ _ _ _ _ hg hf hc =>
      obtain ⟨r, h1, rfl, rfl⟩ := act_onRun (env := env) (h := h) ha
      simp only [onRun, h1]
    | warning =>
      obtain ⟨m, r, hm, rfl, h1, rfl⟩ := act_warning (env := env) (h := h) ha
      have hx : ∃ x ∈ rest, (Str.strip x).isEmpty = true := by
        simp only [takeMatch, Except.ok.injEq, Prod.mk.injEq, Option.map_eq_some_iff] at hg
        obtain ⟨⟨m', h2, -⟩, rfl⟩ := hg
        refine ⟨NL, last_mem hc ?_, NL_strip⟩
        rintro rfl
        have := NL_not_warning
        rw [h2] at this
        cases this
      simp only [warning, Hit.match_, hm, bind, Except.bind]
      rw [warnLines_extends _ _ _ _ hx]
      dsimp only [id] at h1 ⊢
      rw [h1]
      rfl
    | title =>
      obtain ⟨l, rfl, rfl⟩ := act_title (env := env) (h := h) ha
      rfl
    | cutoff =>
      obtain ⟨n, l, r1, b, r, h1, rfl, hb, h2, rfl⟩ := act_cutoff (env := env) (h := h) ha
      obtain ⟨t, -, -, h3⟩ := from_re_ok _ _ _ _ _ _ _ hb
      simp only [cutoff_eq, h1, bind, Except.bind, List.cons_append, nextLine, h3 more]
      dsimp only [id] at h2 ⊢
      rw [h2]
    | field =>
      obtain ⟨l, v, rfl, h1, rfl⟩ := act_field (env := env) (h := h) ha
      simp only [appliedField, List.cons_append, nextLine, bind, Except.bind, h1]
      rfl
    | mixture =>
      obtain ⟨pos, mix, h1, rfl, rfl⟩ := act_mixture (env := env) (h := h) ha
      simp only [mixture, bind, Except.bind]
      dsimp only [id] at h1 ⊢
      rw [h1]
      rfl
  · rw [Section.run, hch]
    simp [hw]

/-! ### The depth of the recursion -/

theorem run_local {sec : Section} (hs : SecOf sec) {a b : Env} {n : Nat} (e : EnvEq n a b) {line : Str} {h : Hit}
    {rest0 rest : List Str} {s : State} (hn : rest0.length ≤ n) (hg : sec.grab line rest0 = .ok (some h, rest)) :
    sec.run a h rest s = sec.run b h rest s := by
  obtain ⟨t, ht, hb⟩ := hs.grab.takes _ _ _ _ hg
  obtain ⟨-, hb⟩ := hb h rfl
  have hlen : rest0.length = t.length + rest.length := by rw [ht]; simp
  have he : EnvEq (h.block.length - 1) a b := e.mono (by omega)
  have her : EnvEq rest.length a b := e.mono (by omega)
  rw [Section.run, Section.run, e.filters]
  split
  · rfl
  split
  · cases hs with
    | run _ _ _ _ _ _ hg hf hc => simp only [onRun, hf _ _ _ _ he]
    | warning => rfl
    | title => rfl
    | cutoff =>
      dsimp only [id]
      rw [cutoff_eq, cutoff_eq]
      cases cutoffCount h with
      | error e => rfl
      | ok k =>
        show (nextLine rest >>= _) = (nextLine rest >>= _)
        cases rest with
        | nil => rfl
        | cons x l =>
          simp only [bind, Except.bind, nextLine]
          generalize hb : Block.from_re [] l (fun _ => true) (found SCF_END_RE) (k * 3) false = y
          obtain ⟨e | bl, rest'⟩ := y
          · rfl
          · obtain ⟨t, h1, h2, -⟩ := from_re_ok _ _ _ _ _ _ _ hb
            have : bl.data.length ≤ (x :: l).length := by
              rcases h2 with h2 | h2
              · simp [h2]
              · simp [h2, h1]
            have hc : cutoffRun a bl.data s.curr = cutoffRun b bl.data s.curr := by
              unfold cutoffRun
              rw [her.recur _ _ this]
            simp only [hc]
    | field => rfl
    | mixture => rfl
  · rfl

/-! ### The runs before -/

/-- The states differ in the runs before, and in the mixture line remembered when the first has none. -/
structure After (pre : List Run) (s t : State) : Prop where
  runs : t.runs = pre ++ s.runs
  curr : t.curr = s.curr
  mix : s.mix = none ∨ s.mix = t.mix

theorem After.newRun {pre : List Run} {s t : State} (h : After pre s t) : After pre (newRun s) (newRun t) := by
  refine ⟨?_, rfl, h.mix⟩
  simp only [Castep.newRun, h.curr, h.runs]
  split <;> simp

theorem mixtureLine_after {d d' : Dict Key PyVal} {x y z : Option (Int × PyVal)} {line : Str}
    (h : mixtureLine (d, x) line = .ok (d', y)) (hx : x = none ∨ x = z) :
    ∃ w, mixtureLine (d, z) line = .ok (d', w) ∧ (y = none ∨ y = w) := by
  rw [mixtureLine] at h ⊢
  split at h
  · rename_i m _
    refine ⟨y, ?_, .inr rfl⟩
    rw [← h]
  · split at h
    · cases h; exact ⟨z, rfl, hx⟩
    · obtain ⟨spec, h1, h2⟩ := bind_ok h
      obtain ⟨wt, h3, h4⟩ := bind_ok h2
      rcases hx with rfl | rfl
      · cases h4
      · exact ⟨y, h, .inr rfl⟩

theorem mixture_after {block : List Str} : ∀ {d d' : Dict Key PyVal} {x y z : Option (Int × PyVal)},
    foldLines mixtureLine (d, x) block = .ok (d', y) → (x = none ∨ x = z) →
    ∃ w, foldLines mixtureLine (d, z) block = .ok (d', w) ∧ (y = none ∨ y = w) := by
  induction block with
  | nil => intro d d' x y z h hx; cases h; exact ⟨z, rfl, hx⟩
  | cons l ls ih =>
    intro d d' x y z h hx
    obtain ⟨⟨d1, x1⟩, h1, h2⟩ := bind_ok h
    obtain ⟨z1, h3, h4⟩ := mixtureLine_after h1 hx
    obtain ⟨w, h5, h6⟩ := ih h2 h4
    refine ⟨w, ?_, h6⟩
    show (mixtureLine (d, z) l >>= _) = _
    rw [h3]
    exact h5

theorem run_after {sec : Section} (hs : SecOf sec) {env : Env} {h : Hit} {rest rest' : List Str} {pre : List Run}
    {s s' t : State} (hst : After pre s t) (hr : sec.run env h rest s = .ok (s', rest')) :
    ∃ t', sec.run env h rest t = .ok (t', rest') ∧ After pre s' t' := by
  have hcut : After pre (sec.cut s) (sec.cut t) := by
    cases hs with
    | run _ _ _ _ _ _ hg hf hc => rcases hc with rfl | rfl; exacts [hst, hst.newRun]
    | warning => exact hst
    | title => exact hst
    | cutoff => exact hst
    | field => exact hst
    | mixture => exact hst
  obtain ⟨hch, ⟨hw, ha⟩ | ⟨hw, rfl, rfl⟩⟩ := run_ok hr
  · simp only [Section.run, hch, hw, if_true]
    generalize sec.cut s = u at *
    generalize sec.cut t = v at *
    have hset : ∀ r, After pre { u with curr := r } { v with curr := r } := fun r => ⟨hcut.runs, rfl, hcut.mix⟩
    cases hs with
    | run _ _ _ _ _ _ hg hf hc =>
      obtain ⟨r, h1, rfl, rfl⟩ := act_onRun (env := env) (h := h) ha
      exact ⟨{ v with curr := r }, by simp only [onRun, hcut.curr, h1], hset r⟩
    | warning =>
      obtain ⟨m, r, hm, rfl, h1, rfl⟩ := act_warning (env := env) (h := h) ha
      refine ⟨{ v with curr := r }, ?_, hset r⟩
      simp only [warning, Hit.match_, hm, bind, Except.bind, hcut.curr, h1]
      rfl
    | title =>
      obtain ⟨l, rfl, rfl⟩ := act_title (env := env) (h := h) ha
      refine ⟨_, rfl, ?_⟩
      rw [hcut.curr]
      exact hset _
    | cutoff =>
      obtain ⟨n, l, r1, b, r, h1, rfl, hb, h2, rfl⟩ := act_cutoff (env := env) (h := h) ha
      refine ⟨{ v with curr := r }, ?_, hset r⟩
      simp only [cutoff_eq, h1, bind, Except.bind, nextLine, hb, hcut.curr, h2]
    | field =>
      obtain ⟨l, w, rfl, h1, rfl⟩ := act_field (env := env) (h := h) ha
      refine ⟨{ v with curr := v.curr.set (.str (py"applied_field")) w }, ?_, ?_⟩
      · simp only [appliedField, nextLine, bind, Except.bind, h1]
        rfl
      · rw [hcut.curr]; exact hset _
    | mixture =>
      obtain ⟨pos, mix, h1, rfl, rfl⟩ := act_mixture (env := env) (h := h) ha
      obtain ⟨w, h2, h3⟩ := mixture_after h1 hcut.mix
      refine ⟨{ v with curr := v.curr.set (.str (py"initial_positions")) (.dict pos), mix := w }, ?_, ?_⟩
      · simp only [mixture, bind, Except.bind, h2]
        rfl
      · exact ⟨hcut.runs, by rw [hcut.curr], h3⟩
  · exact ⟨_, by simp [Section.run, hch, hw], hcut⟩

end Verif.Castep
