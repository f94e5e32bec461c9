import Verif.Lemmas.CastepStep
/- The main loop of `parse_castep_file` as a whole: fuel, depth of the recursion, text appended, runs before. -/
namespace Verif.Castep
open Verif

theorem dispatch_takes {secs : List Section} (hs : ∀ sec ∈ secs, SecOf sec) {env : Env} {line : Str}
    {rest rest' : List Str} {s s' : State} (h : dispatch env line secs rest s = .ok (s', rest')) :
    ∃ t, rest = t ++ rest' := by
  induction secs with
  | nil => cases h; exact ⟨[], rfl⟩
  | cons sec secs ih =>
    rw [dispatch_cons] at h
    split at h
    · cases h
    · rename_i r hg
      obtain rfl := (hs sec (by simp)).grab.keeps _ _ _ hg
      exact ih (fun x hx => hs x (by simp [hx])) h
    · rename_i hit r hg
      obtain ⟨t, ht, -⟩ := (hs sec (by simp)).grab.takes _ _ _ _ hg
      obtain ⟨u, hu⟩ := run_takes (hs sec (by simp)) h
      exact ⟨t ++ u, by rw [ht, hu]; simp⟩

theorem dispatch_extends {secs : List Section} (hs : ∀ sec ∈ secs, SecOf sec) {env : Env} {line : Str}
    {rest rest' : List Str} {s s' : State} (hc : (line :: rest).getLast? = some NL)
    (h : dispatch env line secs rest s = .ok (s', rest')) (more : List Str) :
    dispatch env line secs (rest ++ more) s = .ok (s', rest' ++ more) := by
  induction secs with
  | nil => cases h; rfl
  | cons sec secs ih =>
    rw [dispatch_cons] at h ⊢
    split at h
    · cases h
    · rename_i r hg
      obtain rfl := (hs sec (by simp)).grab.keeps _ _ _ hg
      rw [(hs sec (by simp)).grab.extends _ _ _ _ hc hg more]
      exact ih (fun x hx => hs x (by simp [hx])) h
    · rename_i hit r hg
      rw [(hs sec (by simp)).grab.extends _ _ _ _ hc hg more]
      exact run_extends (hs sec (by simp)) hc hg h more

theorem dispatch_local {secs : List Section} (hs : ∀ sec ∈ secs, SecOf sec) {a b : Env} {n : Nat} (e : EnvEq n a b)
    {line : Str} {rest : List Str} (hn : rest.length ≤ n) (s : State) :
    dispatch a line secs rest s = dispatch b line secs rest s := by
  induction secs with
  | nil => rfl
  | cons sec secs ih =>
    rw [dispatch_cons, dispatch_cons]
    generalize hg : sec.grab line rest = g
    match g with
    | .error e => rfl
    | .ok (none, r) =>
      obtain rfl := (hs sec (by simp)).grab.keeps _ _ _ hg
      exact ih fun x hx => hs x (by simp [hx])
    | .ok (some hit, r) => exact run_local (hs sec (by simp)) e hn hg

theorem dispatch_after {secs : List Section} (hs : ∀ sec ∈ secs, SecOf sec) {env : Env} {line : Str}
    {rest rest' : List Str} {pre : List Run} {s s' t : State} (hst : After pre s t)
    (h : dispatch env line secs rest s = .ok (s', rest')) :
    ∃ t', dispatch env line secs rest t = .ok (t', rest') ∧ After pre s' t' := by
  induction secs generalizing rest with
  | nil => cases h; exact ⟨t, rfl, hst⟩
  | cons sec secs ih =>
    rw [dispatch_cons] at h ⊢
    split at h
    · cases h
    · exact ih (fun x hx => hs x (by simp [hx])) h
    · exact run_after (hs sec (by simp)) hst h

/-! ### The loop -/

theorem loop_nil (env : Env) (secs : List Section) (fuel : Nat) (s : State) : loop env secs fuel [] s = .ok s := by
  cases fuel <;> rfl

theorem loop_fuel {secs : List Section} (hs : ∀ sec ∈ secs, SecOf sec) (env : Env) (fuel fuel' : Nat)
    (lines : List Str) (s : State) (h : lines.length < fuel) (h' : lines.length < fuel') :
    loop env secs fuel lines s = loop env secs fuel' lines s := by
  induction fuel generalizing fuel' lines s with
  | zero => omega
  | succ fuel ih =>
    obtain ⟨f, rfl⟩ : ∃ f, fuel' = f + 1 := ⟨fuel' - 1, by omega⟩
    cases lines with
    | nil => rfl
    | cons line rest =>
      rw [loop, loop]
      split
      · rfl
      · rename_i s' rest' hd
        obtain ⟨t, ht⟩ := dispatch_takes hs hd
        have : rest'.length ≤ rest.length := by rw [ht]; simp
        simp only [List.length_cons] at h h'
        exact ih f rest' s' (by omega) (by omega)

/-- The loop without fuel. -/
def go (env : Env) (lines : List Str) (s : State) : PyM State := loop env sections (lines.length + 1) lines s

theorem go_nil (env : Env) (s : State) : go env [] s = .ok s := rfl

theorem go_cons (env : Env) (line : Str) (rest : List Str) (s : State) :
    go env (line :: rest) s =
      match dispatch env line sections rest s with
      | .error e => .error e
      | .ok (s, rest) => go env rest s := by
  rw [go, loop]
  split
  · rename_i h; rw [h]
  · rename_i s' rest' hd
    rw [hd]
    obtain ⟨t, ht⟩ := dispatch_takes sections_of hd
    have : rest'.length ≤ rest.length := by rw [ht]; simp
    exact loop_fuel sections_of env _ _ rest' s' (by simp; omega) (by omega)

/-- Induction on the steps of the loop. -/
theorem go_induct {P : List Str → State → State → Prop} {env : Env} (hnil : ∀ s, P [] s s)
    (hcons : ∀ line rest s s1 rest1 s', dispatch env line sections rest s = .ok (s1, rest1) →
      (∃ t, rest = t ++ rest1) → go env rest1 s1 = .ok s' → P rest1 s1 s' → P (line :: rest) s s') :
    ∀ lines s s', go env lines s = .ok s' → P lines s s' := by
  intro lines
  generalize hn : lines.length = n
  induction n using Nat.strongRecOn generalizing lines with
  | _ n ih =>
    intro s s' h
    cases lines with
    | nil => cases h; exact hnil _
    | cons line rest =>
      rw [go_cons] at h
      split at h
      · cases h
      · rename_i s1 rest1 hd
        have ht := dispatch_takes sections_of hd
        refine hcons _ _ _ _ _ _ hd ht h (ih rest1.length ?_ _ rfl _ _ h)
        obtain ⟨t, rfl⟩ := ht
        simp at hn
        omega

theorem getLast?_suffix {t l : List α} (hl : l ≠ []) : (t ++ l).getLast? = l.getLast? := by
  rw [List.getLast?_append]
  cases h : l.getLast? with
  | none => rw [List.getLast?_eq_none_iff] at h; exact absurd h hl
  | some x => rfl

/-- Text appended to a text ending with an empty line. -/
theorem go_append {env : Env} (lines : List Str) (s s' : State) (h : go env lines s = .ok s')
    (hc : lines = [] ∨ lines.getLast? = some NL) (more : List Str) :
    go env (lines ++ more) s = go env more s' := by
  revert hc
  refine go_induct (P := fun lines s s' => lines = [] ∨ lines.getLast? = some NL →
    go env (lines ++ more) s = go env more s') ?_ ?_ lines s s' h
  · intro s _; rfl
  · intro line rest s s1 rest1 s' hd ⟨t, ht⟩ _ ih hc
    have hc : (line :: rest).getLast? = some NL := by rcases hc with hc | hc; cases hc; exact hc
    rw [List.cons_append, go_cons, dispatch_extends sections_of hc hd more]
    refine ih ?_
    by_cases h0 : rest1 = []
    · exact .inl h0
    · refine .inr ?_
      rw [← hc, ht, ← List.cons_append, getLast?_suffix h0]

/-- The depth of the recursion. -/
theorem go_local {a b : Env} (lines : List Str) (s : State) (e : EnvEq (lines.length - 1) a b) :
    go a lines s = go b lines s := by
  generalize hn : lines.length = n at e
  induction n using Nat.strongRecOn generalizing lines s with
  | _ n ih =>
    cases lines with
    | nil => rfl
    | cons line rest =>
      simp only [List.length_cons] at hn
      rw [go_cons, go_cons, dispatch_local sections_of e (by omega) s]
      generalize hd : dispatch b line sections rest s = d
      match d with
      | .error e => rfl
      | .ok (s1, rest1) =>
        obtain ⟨t, ht⟩ := dispatch_takes sections_of hd
        have : rest1.length ≤ rest.length := by rw [ht]; simp
        exact ih rest1.length (by omega) rest1 s1 rfl (e.mono (by omega))

/-- The runs before. -/
theorem go_after {env : Env} {pre : List Run} (lines : List Str) (s s' : State) (h : go env lines s = .ok s') :
    ∀ t, After pre s t → ∃ t', go env lines t = .ok t' ∧ After pre s' t' := by
  refine go_induct (P := fun lines s s' => ∀ t, After pre s t → ∃ t', go env lines t = .ok t' ∧ After pre s' t')
    ?_ ?_ lines s s' h
  · intro s t ht; exact ⟨t, rfl, ht⟩
  · intro line rest s s1 rest1 s' hd _ _ ih t ht
    obtain ⟨t1, h1, h2⟩ := dispatch_after sections_of ht hd
    obtain ⟨t', h3, h4⟩ := ih t1 h2
    exact ⟨t', by rw [go_cons, h1]; exact h3, h4⟩

/-! ### The whole parser -/

variable {order : List Str → List Str} {ops : Ops F64}

theorem parseN_depth (d d' : Nat) (F : Filters) (l : List Str) (h : l.length < d) (h' : l.length < d') :
    parseN order ops d F l = parseN order ops d' F l := by
  induction d generalizing d' F l with
  | zero => omega
  | succ d ih =>
    obtain ⟨e, rfl⟩ : ∃ e, d' = e + 1 := ⟨d' - 1, by omega⟩
    show (go _ l {} >>= finish) = (go _ l {} >>= finish)
    cases l with
    | nil => rfl
    | cons x l =>
      simp only [List.length_cons] at h h'
      rw [go_local (a := ⟨F, parseN order ops d, order, ops⟩) (b := ⟨F, parseN order ops e, order, ops⟩) (x :: l) {}
        ⟨rfl, rfl, rfl, fun G k hk => ih e G k (by simp at hk; omega) (by simp at hk; omega)⟩]

/-- The environment of a call. -/
def envOf (order : List Str → List Str) (ops : Ops F64) (F : Filters) : Env :=
  ⟨F, parse_castep_file order ops, order, ops⟩

/-- `parse_castep_file` calls itself. -/
theorem parse_eq (F : Filters) (l : List Str) :
    parse_castep_file order ops F l = (go (envOf order ops F) l {} >>= finish) := by
  cases l with
  | nil => rfl
  | cons x l =>
    show (go _ (x :: l) {} >>= finish) = _
    rw [go_local (a := ⟨F, parseN order ops (x :: l).length, order, ops⟩) (b := envOf order ops F) (x :: l) {}
      ⟨rfl, rfl, rfl, fun G k hk => parseN_depth _ _ G k (by simp at hk ⊢; omega) (by omega)⟩]

end Verif.Castep
