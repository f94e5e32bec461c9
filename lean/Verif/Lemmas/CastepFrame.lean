import Verif.Lemmas.CastepRuns
import Verif.Lemmas.Dict
import Verif.Spec.CastepTable
/- What the branches of the main loop of `parse_castep_file` do to the current run: entries are written one by one,
each from its old value alone. -/
namespace Verif.Castep
open Verif Verif.Spec

/-! ### Writing entries -/

/-- A list of entries written, each with its value from its old value. -/
abbrev Wr := List (Key × (Option PyVal → PyM PyVal))

/-- The entries written in order. -/
def Wr.run : Wr → Run → PyM Run
  | [], r => .ok r
  | (k, g) :: ws, r =>
    match g (r.get? k) with
    | .error e => .error e
    | .ok v => Wr.run ws (r.set k v)

/-- When the operation succeeds, it writes entries under the keys of `P`, each from its old value alone. -/
def Writes (P : Key → Prop) (p : Run → PyM Run) : Prop :=
  ∃ ws : Wr, (∀ kg ∈ ws, P kg.1) ∧ ∀ r r1, p r = .ok r1 → ws.run r = .ok r1

theorem Wr.run_append (ws vs : Wr) (r r1 r2 : Run) (h : ws.run r = .ok r1) (h' : vs.run r1 = .ok r2) :
    Wr.run (ws ++ vs) r = .ok r2 := by
  induction ws generalizing r with
  | nil => cases h; exact h'
  | cons kg ws ih =>
    obtain ⟨k, g⟩ := kg
    rw [Wr.run] at h
    rw [List.cons_append, Wr.run]
    split at h
    · cases h
    · rename_i v hv
      exact ih _ h

theorem Writes.mono {P Q : Key → Prop} {p : Run → PyM Run} (h : Writes P p) (hPQ : ∀ k, P k → Q k) : Writes Q p := by
  obtain ⟨ws, h1, h2⟩ := h
  exact ⟨ws, fun kg hkg => hPQ _ (h1 kg hkg), h2⟩

theorem writes_ok (P : Key → Prop) : Writes P fun r => .ok r :=
  ⟨[], by simp, by intro r r1 h; cases h; rfl⟩

theorem writes_error (P : Key → Prop) {p : Run → PyM Run} (h : ∀ r, ∃ e, p r = .error e) : Writes P p :=
  ⟨[], by simp, by intro r r1 h1; obtain ⟨e, he⟩ := h r; rw [he] at h1; cases h1⟩

theorem writes_one {P : Key → Prop} (k : Key) (hk : P k) (g : Option PyVal → PyM PyVal) {p : Run → PyM Run}
    (h : ∀ r r1, p r = .ok r1 → ∃ v, g (r.get? k) = .ok v ∧ r1 = r.set k v) : Writes P p := by
  refine ⟨[(k, g)], by simpa using hk, ?_⟩
  intro r r1 h1
  obtain ⟨v, h2, rfl⟩ := h r r1 h1
  simp [Wr.run, h2]

theorem Writes.then {P : Key → Prop} {p q : Run → PyM Run} (hp : Writes P p) (hq : Writes P q) :
    Writes P fun r => p r >>= q := by
  obtain ⟨ws, h1, h2⟩ := hp
  obtain ⟨vs, h3, h4⟩ := hq
  refine ⟨ws ++ vs, ?_, ?_⟩
  · intro kg hkg
    rcases List.mem_append.1 hkg with h | h
    · exact h1 kg h
    · exact h3 kg h
  · intro r r2 h
    obtain ⟨r1, h5, h6⟩ := bind_ok h
    exact Wr.run_append _ _ _ _ _ (h2 _ _ h5) (h4 _ _ h6)

theorem writes_bind {P : Key → Prop} {x : PyM α} {q : α → Run → PyM Run} (h : ∀ a, x = .ok a → Writes P (q a)) :
    Writes P fun r => x >>= fun a => q a r := by
  cases x with
  | error e => exact writes_error P fun r => ⟨e, rfl⟩
  | ok a => exact h a rfl

theorem writes_set {P : Key → Prop} (k : Key) (hk : P k) (v : PyVal) : Writes P fun r => .ok (r.set k v) :=
  writes_one k hk (fun _ => .ok v) fun r r1 h => ⟨v, rfl, by cases h; rfl⟩

theorem writes_append {P : Key → Prop} (k : Key) (hk : P k) (v : PyVal) : Writes P fun r => MdGeom.appendTo r k v := by
  refine writes_one k hk (fun o => match o with
    | none => .ok (.list [v]) | some (.list l) => .ok (.list (l ++ [v])) | some _ => .error .attributeError) ?_
  intro r r1 h
  rw [MdGeom.appendTo] at h
  split at h <;> simp_all

theorem set_self (r : Run) (k : Key) (v : PyVal) (h : r.get? k = some v) : r.set k v = r := by
  induction r with
  | nil => simp [Dict.get?] at h
  | cons kv r ih =>
    obtain ⟨k', v'⟩ := kv
    rw [Dict.get?] at h
    rw [Dict.set]
    split at h
    · rename_i he
      cases h
      simp [he]
    · rename_i he
      rw [if_neg he, ih h]

theorem mem_iff (d : Run) (k : Key) : d.mem k = (d.get? k).isSome := by
  rw [Dict.mem]

theorem writes_ensure {P : Key → Prop} (k : Key) (hk : P k) (v : PyVal) : Writes P fun r => .ok (ensure r k v) := by
  refine writes_one k hk (fun o => .ok (o.getD v)) ?_
  intro r r1 h
  cases h
  refine ⟨_, rfl, ?_⟩
  rw [ensure, mem_iff]
  cases hv : r.get? k with
  | none => simp
  | some w => simp [set_self r k w hv]

theorem writes_updateIn {P : Key → Prop} (k : Key) (hk : P k) (e : Dict Key PyVal) :
    Writes P fun r => updateIn r k e := by
  refine writes_one k hk (fun o => match o with
    | some (.dict f) => .ok (.dict (updateDict f e)) | some _ => .error .attributeError | none => .error .keyError) ?_
  intro r r1 h
  rw [updateIn] at h
  split at h <;> simp_all

theorem writes_appendIn {P : Key → Prop} (k : Key) (hk : P k) (k2 : Key) (v : PyVal) :
    Writes P fun r => appendIn r k k2 v := by
  refine writes_one k hk (fun o => match o with
    | some (.dict e) => (MdGeom.appendTo e k2 v).map .dict | some _ => .error .typeError | none => .error .keyError) ?_
  intro r r1 h
  rw [appendIn] at h
  split at h
  · rename_i e he
    obtain ⟨e', h1, h2⟩ := bind_ok h
    cases h2
    exact ⟨.dict e', by simp [he, h1, Except.map], rfl⟩
  · cases h
  · cases h

theorem writes_setIn {P : Key → Prop} (k : Key) (hk : P k) (k2 : Key) (v : PyVal) :
    Writes P fun r => setIn r k k2 v := by
  refine writes_one k hk (fun o => match o with
    | some (.dict e) => .ok (.dict (Dict.set e k2 v)) | some _ => .error .typeError | none => .error .keyError) ?_
  intro r r1 h
  rw [setIn, Magres.setSub] at h
  split at h <;> simp_all

theorem writes_update {P : Key → Prop} (d : Dict Key PyVal) (hd : ∀ k ∈ d.keys, P k) :
    Writes P fun r => .ok (updateDict r d) := by
  refine ⟨d.map fun kv => (kv.1, fun _ => .ok kv.2), ?_, ?_⟩
  · intro kg hkg
    obtain ⟨kv, h1, rfl⟩ := List.mem_map.1 hkg
    exact hd _ (List.mem_map.2 ⟨kv, h1, rfl⟩)
  · intro r r1 h
    cases h
    clear hd
    induction d generalizing r with
    | nil => rfl
    | cons kv d ih => exact ih (r.set kv.1 kv.2)

/-! ### The actions -/

theorem w_store {P : Key → Prop} (key : Str) (hk : P (.str key)) (f : List Str → PyM PyVal) (env : Env) (h : Hit) :
    Writes P (store key f env h) :=
  writes_bind fun v _ => writes_set (.str key) hk v

theorem w_push {P : Key → Prop} (key : Str) (hk : P (.str key)) (f : List Str → PyM PyVal) (env : Env) (h : Hit) :
    Writes P (push key f env h) :=
  writes_bind fun v _ => writes_append (.str key) hk v

theorem w_merge {P : Key → Prop} (key : Str) (hk : P (.str key)) (f : List Str → PyM (Dict Key PyVal)) (env : Env)
    (h : Hit) : Writes P (merge key f env h) :=
  writes_bind fun d _ => (writes_ensure (.str key) hk (.dict [])).then (writes_updateIn (.str key) hk d)

theorem w_pushIn {P : Key → Prop} (key sub : Str) (hk : P (.str key)) (v : PyVal) : Writes P (pushIn key sub v) :=
  (writes_ensure (.str key) hk (.dict [])).then (writes_appendIn (.str key) hk (.str sub) v)

theorem w_kinds {P : Key → Prop} (key : Str) (hk : P (.str key)) (f : List Str → PyM (Key × PyVal)) (env : Env)
    (h : Hit) : Writes P (kinds key f env h) :=
  writes_bind fun kv _ => (writes_ensure (.str key) hk (.dict [])).then (writes_appendIn (.str key) hk kv.1 kv.2)

theorem w_timeStarted {P : Key → Prop} (hk : P (.str (py"time_started"))) (env : Env) (h : Hit) :
    Writes P (timeStarted env h) := by
  unfold timeStarted
  split
  · exact writes_set _ hk _
  · exact writes_error P fun _ => ⟨_, rfl⟩

theorem w_efficiency {P : Key → Prop} (hk : P (.str (py"parallel_efficiency"))) (env : Env) (h : Hit) :
    Writes P (efficiency env h) := writes_bind fun v _ => writes_set _ hk v

theorem w_continuation {P : Key → Prop} (hk : P (.str (py"continuation"))) (env : Env) (h : Hit) :
    Writes P (continuation env h) := writes_bind fun v _ => writes_set _ hk (.str v)

theorem w_warningBox {P : Key → Prop} (hk : P (.str (py"warning"))) (env : Env) (h : Hit) :
    Writes P (warningBox env h) := writes_append _ hk _

theorem w_quantisation {P : Key → Prop} (hk : P (.str (py"quantisation_axis"))) (env : Env) (h : Hit) :
    Writes P (quantisation env h) := writes_bind fun v _ => writes_set _ hk v

theorem w_species {P : Key → Prop} (hk : P (.str (py"species_properties"))) (key : Key) (val : Dict Key PyVal) :
    Writes P fun r => species r key val := by
  refine (writes_ensure (.str (py"species_properties")) hk (.dict [])).then
    (q := fun r => match r.get? (.str (py"species_properties")) with
      | some (.dict d) => do
        let d ← updateIn (ensure d key) key val
        return r.set (.str (py"species_properties")) (.dict d)
      | _ => .error .typeError) ?_
  refine writes_one _ hk (fun o => match o with
    | some (.dict d) => (updateIn (ensure d key) key val).map .dict | _ => .error .typeError) ?_
  intro r r1 h
  split at h
  · rename_i d hd
    obtain ⟨d', h1, h2⟩ := bind_ok h
    cases h2
    exact ⟨.dict d', by simp [hd, h1, Except.map], rfl⟩
  · cases h

theorem w_speciesRows {P : Key → Prop} (hk : P (.str (py"species_properties"))) (unpack : List Str → PyM (Str × Str))
    (name : Str) (f : Str → PyM PyVal) (rows : List (List Str)) :
    Writes P fun r => speciesRows unpack name f r rows := by
  induction rows with
  | nil => exact writes_ensure _ hk _
  | cons ws rows ih =>
    exact writes_bind fun kv _ => writes_bind fun v _ =>
      (w_species hk (.str kv.1) [(.str name, v)]).then ih

theorem w_psEnergy {P : Key → Prop} (hk : P (.str (py"species_properties"))) (env : Env) (h : Hit) :
    Writes P (psEnergy env h) := writes_bind fun kv _ => w_species hk kv.1 kv.2

theorem w_mass {P : Key → Prop} (hk : P (.str (py"species_properties"))) (env : Env) (h : Hit) :
    Writes P (mass env h) := writes_bind fun rows _ => w_speciesRows hk _ _ _ rows

theorem w_quadrupole {P : Key → Prop} (hk : P (.str (py"species_properties"))) (env : Env) (h : Hit) :
    Writes P (quadrupole env h) := writes_bind fun rows _ => w_speciesRows hk _ _ _ rows

theorem w_pseudopot {P : Key → Prop} (hk : P (.str (py"species_properties"))) (env : Env) (h : Hit) :
    Writes P (pseudopot env h) := writes_bind fun rows _ => w_speciesRows hk _ _ _ rows

theorem w_pspotDebug {P : Key → Prop} (hk : P (.str (py"pspot_debug"))) (env : Env) (h : Hit) :
    Writes P (pspotDebug env h) := writes_bind fun _ _ => writes_bind fun v _ => writes_append _ hk (.dict v)

theorem w_energy {P : Key → Prop} (hk : P (.str (py"energies"))) (key : Str) (env : Env) (h : Hit) :
    Writes P (energy key env h) := writes_bind fun v _ => w_pushIn _ _ hk v

theorem w_solvation {P : Key → Prop} (hk : P (.str (py"energies"))) (env : Env) (h : Hit) :
    Writes P (solvation env h) := by
  refine writes_bind fun v _ => ?_
  split
  · exact w_pushIn _ _ hk _
  · exact writes_error P fun _ => ⟨_, rfl⟩

theorem w_spinDensity {P : Key → Prop} (h1 : P (.str (py"spin"))) (h2 : P (.str (py"modspin"))) (env : Env) (h : Hit) :
    Writes P (spinDensity env h) := by
  refine writes_bind fun m _ => writes_bind fun val _ => ?_
  have key : ∀ v, Writes P fun r => MdGeom.appendTo r (.str (if c!"|" ∈ h.line then py"modspin" else py"spin")) v := by
    intro v
    refine writes_append _ ?_ v
    split
    · exact h2
    · exact h1
  by_cases hl : c!"|" ∈ h.line
  all_goals
    simp only [hl, if_true, if_false] at key ⊢
    split
    all_goals exact writes_bind fun v _ => key v

theorem w_symmetry {P : Key → Prop} (h1 : P (.str (py"symmetries"))) (h2 : P (.str (py"constraints"))) (env : Env)
    (h : Hit) : Writes P (symmetry env h) :=
  writes_bind fun sc _ => (writes_set _ h1 (.dict sc.1)).then (writes_set _ h2 (.dict sc.2))

theorem w_endpoint {P : Key → Prop} (h1 : P (.str (py"reactant"))) (h2 : P (.str (py"product"))) (env : Env)
    (h : Hit) : Writes P (endpoint env h) := by
  refine writes_bind fun v _ => writes_set _ ?_ v
  split
  · exact h1
  · exact h2

theorem set_set (d : Dict Key PyVal) (k : Key) (v w : PyVal) : (d.set k v).set k w = d.set k w := by
  induction d with
  | nil => simp [Dict.set]
  | cons kv d ih =>
    obtain ⟨k', v'⟩ := kv
    by_cases hk : k' = k
    · simp [Dict.set, hk]
    · simp only [Dict.set, hk, if_false]
      rw [ih]

theorem labelledLine_snd {line : Str} {p d1 d2 p' d1' : Dict Key PyVal}
    (h : labelledLine (p, d1) line = .ok (p', d1')) :
    ∃ d2', labelledLine (p, d2) line = .ok (p', d2') := by
  rw [labelledLine] at h ⊢
  split at h
  · cases h; exact ⟨d2, rfl⟩
  · obtain ⟨i, h1, h⟩ := bind_ok h
    obtain ⟨spec, h2, h⟩ := bind_ok h
    obtain ⟨label, h3, h⟩ := bind_ok h
    obtain ⟨v, h4, h⟩ := bind_ok h
    simp only [h1, h2, h3, h4, bind, Except.bind]
    split at h
    · rename_i hl
      cases h
      exact ⟨_, by rw [if_pos hl]; rfl⟩
    · rename_i hl
      cases h
      exact ⟨_, by rw [if_neg hl]; rfl⟩

theorem labelled_snd (block : List Str) : ∀ {p d1 d2 p' d1' : Dict Key PyVal},
    foldLines labelledLine (p, d1) block = .ok (p', d1') →
    ∃ d2', foldLines labelledLine (p, d2) block = .ok (p', d2') := by
  induction block with
  | nil => intro p d1 d2 p' d1' h; cases h; exact ⟨d2, rfl⟩
  | cons l ls ih =>
    intro p d1 d2 p' d1' h
    obtain ⟨⟨p1, e1⟩, h1, h2⟩ := bind_ok h
    obtain ⟨e2, h3⟩ := labelledLine_snd (d2 := d2) h1
    obtain ⟨d2', h4⟩ := ih (d2 := e2) h2
    refine ⟨d2', ?_⟩
    show (labelledLine (p, d2) l >>= _) = _
    rw [h3]
    exact h4

theorem w_labelled {P : Key → Prop} (h1 : P (.str (py"labels"))) (h2 : P (.str (py"initial_positions"))) (env : Env)
    (h : Hit) : Writes P (labelledPositions env h) := by
  refine ⟨[(.str (py"labels"), fun o => match o.getD (.dict []) with
      | .dict labels => (foldLines labelledLine ([], labels) h.block).map fun x => .dict x.2
      | _ => .error .typeError),
    (.str (py"initial_positions"), fun _ => (foldLines labelledLine ([], []) h.block).map fun x => .dict x.1)], ?_, ?_⟩
  · intro kg hkg
    simp only [List.mem_cons, List.not_mem_nil, or_false] at hkg
    rcases hkg with rfl | rfl
    · exact h1
    · exact h2
  · intro r r1 hr
    unfold labelledPositions at hr
    have key : ∃ labels, (r.get? (.str (py"labels"))).getD (.dict []) = .dict labels ∧
        ∃ pos labels', foldLines labelledLine ([], labels) h.block = .ok (pos, labels') ∧
        r1 = (r.set (.str (py"labels")) (.dict labels')).set (.str (py"initial_positions")) (.dict pos) := by
      cases hg : r.get? (.str (py"labels")) with
      | none =>
        have he : ensure r (.str (py"labels")) = r.set (.str (py"labels")) (.dict []) := by
          rw [ensure, mem_iff, hg]; rfl
        simp only [he, Dict.get?_set_self] at hr
        obtain ⟨⟨pos, lab⟩, h3, h4⟩ := bind_ok hr
        cases h4
        refine ⟨[], rfl, pos, lab, h3, ?_⟩
        congr 1
        exact set_set r _ _ _
      | some v =>
        have he : ensure r (.str (py"labels")) = r := by
          rw [ensure, mem_iff, hg]; rfl
        simp only [he, hg] at hr
        split at hr
        · rename_i labels hv
          cases hv
          obtain ⟨⟨pos, lab⟩, h3, h4⟩ := bind_ok hr
          cases h4
          exact ⟨labels, rfl, pos, lab, h3, rfl⟩
        · cases hr
    obtain ⟨labels, h3, pos, labels', h4, rfl⟩ := key
    obtain ⟨d2, h5⟩ := labelled_snd h.block (d2 := []) h4
    simp [Wr.run, h3, h4, h5, Except.map]

theorem w_supercell {P : Key → Prop} (hk : P (.str (py"supercell"))) (env : Env) (h : Hit) :
    Writes P (supercell env h) := writes_bind fun v _ => writes_set _ hk (.tuple v)

theorem w_dedlne {P : Key → Prop} (hk : P (.str (py"dedlne"))) (env : Env) (h : Hit) :
    Writes P (dedlne env h) := writes_bind fun _ _ => writes_bind fun v _ => writes_set _ hk v

theorem w_comForce {P : Key → Prop} (hk : P (.str (py"forces"))) (env : Env) (h : Hit) :
    Writes P (comForce env h) := writes_bind fun _ _ => writes_bind fun v _ => w_pushIn _ _ hk v

theorem w_twoMatrices {P : Key → Prop} (k1 k2 : Str) (h1 : P (.str k1)) (h2 : P (.str k2)) (env : Env) (h : Hit) :
    Writes P (twoMatrices k1 k2 env h) := by
  refine writes_bind fun ab _ => ?_
  obtain ⟨a, b⟩ := ab
  by_cases hb : b.truthy = true
  · simp only [hb, if_true]
    exact (writes_set _ h1 a).then (writes_set _ h2 b)
  · simp only [hb, if_false]
    exact writes_set _ h1 a

theorem w_elasticItem {P : Key → Prop} (hk : P (.str (py"elastic"))) (key : Str) (lines : List Str) :
    Writes P (elasticItem key lines) :=
  writes_bind fun v _ => (writes_ensure _ hk (.dict [])).then (writes_setIn _ hk (.str key) v)

theorem w_contribution {P : Key → Prop} (hk : P (.str (py"elastic"))) (env : Env) (h : Hit) :
    Writes P (contribution env h) := by
  unfold contribution
  split
  · exact writes_error P fun _ => ⟨_, rfl⟩
  · exact w_elasticItem hk _ _

theorem w_mdStep {P : Key → Prop} (h1 : P (.str (py"md"))) (h2 : P (.str (py"memory_estimate"))) (env : Env) (h : Hit) :
    Writes P (mdStep env h) := by
  refine (writes_ensure _ h1 (.list [])).then (q := fun r => stepData env h.block >>= fun data =>
    MdGeom.appendTo (match data.get? (.str (py"memory_estimate")) with
      | some v => r.set (.str (py"memory_estimate")) v | none => r) (.str (py"md"))
      (.dict (data.erase (.str (py"memory_estimate"))))) (writes_bind fun data _ => ?_)
  cases data.get? (.str (py"memory_estimate")) with
  | none => exact writes_append _ h1 _
  | some v => exact (writes_set _ h2 v).then (writes_append _ h1 _)

theorem w_finalConfig {P : Key → Prop} (hk : P (.str (py"geom_opt"))) (env : Env) (h : Hit) :
    Writes P (finalConfig env h) := by
  refine writes_bind fun v _ => writes_one _ hk (fun o => match o with
    | some (.dict g) => .ok (.dict (Dict.set g (.str (py"final_configuration")) v)) | _ => .error .typeError) ?_
  intro r r1 hr
  split at hr
  · rename_i g hg
    cases hr
    exact ⟨_, by rw [hg], rfl⟩
  · cases hr

theorem w_enthalpy {P : Key → Prop} (h1 : P (.str (py"geom_opt"))) (h2 : P (.str (py"enthalpy"))) (env : Env) (h : Hit) :
    Writes P (enthalpy env h) :=
  writes_bind fun v _ => (writes_ensure _ h1 (.dict [])).then (writes_append _ h2 v)

theorem w_trial {P : Key → Prop} (hk : P (.str (py"geom_opt"))) (env : Env) (h : Hit) :
    Writes P (trial env h) := writes_bind fun _ _ => writes_bind fun v _ => w_pushIn _ _ hk v

theorem w_finalItem {P : Key → Prop} (hk : P (.str (py"geom_opt"))) (env : Env) (h : Hit) :
    Writes P (finalItem env h) := by
  refine writes_bind fun m _ => writes_bind fun v _ => writes_one _ hk (fun o => match o with
    | some (.dict g) =>
      match Dict.get? g (.str (py"final_configuration")) with
      | some (.dict c) => .ok (.dict (Dict.set g (.str (py"final_configuration"))
          (.dict (Dict.set c (.str (Str.join (py"_") (Str.split (Str.lower (normalise_string ((m.named (py"key")).getD [])))))) v))))
      | _ => .error .typeError
    | _ => .error .typeError) ?_
  intro r r1 hr
  split at hr
  · rename_i g hg
    split at hr
    · rename_i c hc
      cases hr
      exact ⟨_, by simp only [hg, hc], rfl⟩
    · cases hr
  · cases hr

theorem w_external {P : Key → Prop} (hk : P (.str (py"external_files"))) (env : Env) (h : Hit) :
    Writes P (external env h) := by
  unfold external
  split
  · exact writes_error P fun _ => ⟨_, rfl⟩
  · dsimp only
    split
    · exact writes_error P fun _ => ⟨_, rfl⟩
    · exact writes_bind fun v _ => (writes_ensure _ hk (.dict [])).then (writes_setIn _ hk _ v)

end Verif.Castep
