import Verif.Lemmas.CastepFits
import Verif.Lemmas.Fields
/- Every branch of the main loop is the one of the table. -/
namespace Verif.Castep
open Verif Verif.Spec

theorem opens_warning {line : Str} {rest : List Str} {h : Hit} {r : List Str}
    (hg : takeMatch WARNING_RE line rest = .ok (some h, r)) : Occurs (py"warning") (Str.lower line) := by
  simp only [takeMatch, Except.ok.injEq, Prod.mk.injEq, Option.map_eq_some_iff] at hg
  obtain ⟨⟨m, h1, -⟩, -⟩ := hg
  obtain ⟨e1, -, e2, -⟩ := Pat.matchAt_some h1
  obtain ⟨u, v, e3⟩ := Re.lang_occursCi (w := py"warning") (by decide) (by decide +kernel) e2
  refine ⟨u, v ++ Str.lower m.after, ?_⟩
  rw [e1]
  simp only [Str.lower, List.map_append] at e3 ⊢
  rw [e3]
  simp

theorem occurs_match {p : Pat} {w line : Str} (hp : Re.hasSets (w.map Re.oneSet) (Re.parts p.re) = true)
    {rest : List Str} {h : Hit} {r : List Str} (hg : takeMatch p line rest = .ok (some h, r)) : Occurs w line := by
  simp only [takeMatch, Except.ok.injEq, Prod.mk.injEq, Option.map_eq_some_iff] at hg
  obtain ⟨⟨m, h1, -⟩, -⟩ := hg
  obtain ⟨e1, -, e2, -⟩ := Pat.matchAt_some h1
  obtain ⟨u, v, e3⟩ := Re.lang_occurs hp e2
  exact ⟨u, v ++ m.after, by rw [e1, e3]; simp⟩

theorem occurs_search {p : Pat} {w line : Str} (hp : Re.hasSets (w.map Re.oneSet) (Re.parts p.re) = true) {m : Match}
    (hg : p.search line = some m) : Occurs w line := by
  rcases Pat.search_spec p line with ⟨h8, -⟩ | ⟨u, t, x, h8, h9, h10, -⟩
  · rw [h8] at hg; cases hg
  · obtain ⟨e1, -, e2, -⟩ := Pat.matchAt_some h10
    obtain ⟨a, b, e3⟩ := Re.lang_occurs hp e2
    exact ⟨u ++ a, b ++ x.after, by rw [h8, e1, e3]; simp⟩

theorem opens_title {line : Str} {rest : List Str} {h : Hit} {r : List Str}
    (hg : takeMatch TITLE_RE line rest = .ok (some h, r)) : Occurs (py"Title") line :=
  occurs_match (by decide +kernel) hg

theorem opens_cutoff {line : Str} {rest : List Str} {h : Hit} {r : List Str}
    (hg : takeSearch CUTOFF_RE line rest = .ok (some h, r)) : Occurs (py"cut-off energies") line := by
  simp only [takeSearch, Except.ok.injEq, Prod.mk.injEq, Option.map_eq_some_iff] at hg
  obtain ⟨⟨m, h1, -⟩, -⟩ := hg
  exact occurs_search (by decide +kernel) h1

theorem opens_geom {line : Str} {rest : List Str} {h : Hit} {r : List Str}
    (hg : takeBlock GEOM_RE GEOM_END_RE 2 false line rest = .ok (some h, r)) : Occurs (py"Starting ") line := by
  obtain ⟨h1, -⟩ := lines_block _ _ _ hg
  obtain ⟨m, hm⟩ := Option.isSome_iff_exists.1 h1
  exact occurs_search (by decide +kernel) hm

theorem opens_field {line : Str} {rest : List Str} {h : Hit} {r : List Str}
    (hg : takeLine (Str.contains (py"Applied Electric Field")) line rest = .ok (some h, r)) :
    Occurs (py"Applied Electric Field") line := by
  simp only [takeLine, Except.ok.injEq, Prod.mk.injEq] at hg
  obtain ⟨h1, -⟩ := hg
  split at h1
  · rename_i hc
    exact (Str.contains_iff _ _).1 hc
  · cases h1

theorem lines_search {p : Pat} {line : Str} {rest : List Str} {h : Hit} {r : List Str}
    (hg : takeSearch p line rest = .ok (some h, r)) : ∀ l ∈ h.block, l ∈ line :: rest := by
  simp only [takeSearch, Except.ok.injEq, Prod.mk.injEq, Option.map_eq_some_iff] at hg
  obtain ⟨⟨m, h1, rfl⟩, -⟩ := hg
  simp

theorem sim_raman {a b : Env} (s : Sim a b) (h : Hit) :
    push (py"raman") (process_raman a.ops) a h = push (py"raman") (process_raman b.ops) b h := by
  rw [s.ops]; rfl

theorem sim_mdStep {a b : Env} (s : Sim a b) (h : Hit) : mdStep a h = mdStep b h := by
  funext r
  unfold mdStep stepData
  rw [s.recur]

theorem sim_pseudopot {a b : Env} {e : Entry} (hg : Agree a.filters b.filters e)
    (h1 : Filters.PSPOT ∈ e.filters) (h : Hit) : pseudopot a h = pseudopot b h := by
  funext r
  unfold pseudopot
  rw [hg _ h1]

theorem sim_external {a b : Env} (s : Sim a b) (h : Hit) : external a h = external b h := by
  funext r
  unfold external
  rw [s.order]

theorem mono_or (x y : Filters) (F G : Filters) (h : ∀ x, Filters.has x F = true → Filters.has x G = true) :
    (needs x F || needs y F) = true → (needs x G || needs y G) = true := by
  simp only [Bool.or_eq_true]
  exact Or.imp (h x) (h y)

theorem asked_or {n : Str} {ks : List Str} {p : Printed} {t : Option (Str × Bool)} {rd mv : Bool} (x y : Filters)
    (F : Filters) (h : (needs x F || needs y F) = true) : Asked F ⟨n, [x, y], ks, p, t, rd, mv⟩ := by
  rcases Bool.or_eq_true_iff.1 h with h | h
  · exact .inr ⟨x, .head _, h⟩
  · exact .inr ⟨y, .tail _ (.head _), h⟩

theorem asked_and {n : Str} {ks : List Str} {p : Printed} {t : Option (Str × Bool)} {rd mv : Bool} (x y : Filters)
    (F : Filters) (h : (needs x F && needs y F) = true) : Asked F ⟨n, [x, y], ks, p, t, rd, mv⟩ :=
  .inr ⟨x, .head _, (Bool.and_eq_true_iff.1 h).1⟩

theorem mono_and (x y : Filters) (F G : Filters) (h : ∀ x, Filters.has x F = true → Filters.has x G = true) :
    (needs x F && needs y F) = true → (needs x G && needs y G) = true := by
  simp only [Bool.and_eq_true]
  exact And.imp (h x) (h y)

set_option maxRecDepth 8000 in
attribute [local irreducible] takeBlock takeLine takeMatch takeSearch takeMd takeFinal onRun warning title cutoff
  appliedField mixture mdStep geomIteration pseudopot external newRun in
theorem fits : List.Forall₂ Fits table sections := by
  unfold table sections
  -- build info
  refine .cons ⟨rfl, fun _ _ h => h _ (.head _), fun _ _ h => h _, fun _ h => .inr ⟨_, .head _, h⟩,
    .run _ rfl rfl (.inl fun _ _ _ _ => rfl) (fun env h => w_store _ (.inl ⟨_, .head _, rfl⟩) _ env h),
    fun _ _ _ _ _ => trivial, fun h => absurd rfl h⟩ ?_
  -- run started
  refine .cons ⟨rfl, fun _ _ h => h _ (.head _), fun _ _ h => h _, fun _ h => .inr ⟨_, .head _, h⟩,
    .run _ rfl rfl (.inl fun _ _ _ _ => rfl) (fun env h => w_timeStarted (.inl ⟨_, .head _, rfl⟩) env h),
    fun _ _ _ _ _ => trivial, fun h => absurd rfl h⟩ ?_
  -- finalisation
  refine .cons ⟨rfl, fun _ _ h => h _ (.head _), fun _ _ h => h _, fun _ h => .inr ⟨_, .head _, h⟩,
    .run _ rfl rfl (.inl fun _ _ _ _ => rfl) (fun env h => w_finalisation env h fun _ l hl hn => .inr ⟨l, hl, hn⟩),
    fun _ _ _ _ _ => trivial, fun _ _ _ _ _ hg => lines_final hg⟩ ?_
  -- parallel efficiency
  refine .cons ⟨rfl, fun _ _ h => h _ (.head _), fun _ _ h => h _, fun _ h => .inr ⟨_, .head _, h⟩,
    .run _ rfl rfl (.inl fun _ _ _ _ => rfl) (fun env h => w_efficiency (.inl ⟨_, .head _, rfl⟩) env h),
    fun _ _ _ _ _ => trivial, fun h => absurd rfl h⟩ ?_
  -- continuation
  refine .cons ⟨rfl, fun _ _ h => h _ (.head _), fun _ _ h => h _, fun _ h => .inr ⟨_, .head _, h⟩,
    .run _ rfl rfl (.inl fun _ _ _ _ => rfl) (fun env h => w_continuation (.inl ⟨_, .head _, rfl⟩) env h),
    fun _ _ _ _ _ => trivial, fun h => absurd rfl h⟩ ?_
  -- warning box
  refine .cons ⟨rfl, fun _ _ h => h _ (.head _), fun _ _ h => h _, fun _ h => .inr ⟨_, .head _, h⟩,
    .run _ rfl rfl (.inl fun _ _ _ _ => rfl) (fun env h => w_warningBox (.inl ⟨_, .head _, rfl⟩) env h),
    fun _ _ _ _ _ => trivial, fun h => absurd rfl h⟩ ?_
  -- warning
  refine .cons ⟨rfl, fun _ _ h => h _ (.head _), fun _ _ h => h _, fun _ h => .inr ⟨_, .head _, h⟩,
    .warning rfl rfl (.head _),
    fun _ _ _ _ => opens_warning, fun h => absurd rfl h⟩ ?_
  -- memory estimate
  refine .cons ⟨rfl, fun _ _ h => h _ (.head _), fun _ _ h => h _, fun _ h => .inr ⟨_, .head _, h⟩,
    .run _ rfl rfl (.inl fun _ _ _ _ => rfl) (fun env h => w_push _ (.inl ⟨_, .head _, rfl⟩) _ env h),
    fun _ _ _ _ _ => trivial, fun h => absurd rfl h⟩ ?_
  -- title
  refine .cons ⟨rfl, fun _ _ h => h _ (.head _), fun _ _ h => h _, fun _ h => .inr ⟨_, .head _, h⟩,
    .title rfl rfl (.head _),
    fun _ _ _ _ => opens_title, fun h => absurd rfl h⟩ ?_
  -- parameters
  refine .cons ⟨rfl, fun _ _ h => h _ (.head _), fun _ _ h => h _, fun _ h => .inr ⟨_, .head _, h⟩,
    .run _ rfl rfl (.inl fun _ _ _ _ => rfl) (fun env h => w_store _ (.inl ⟨_, .head _, rfl⟩) _ env h),
    fun _ _ _ _ _ => trivial, fun h => absurd rfl h⟩ ?_
  -- quantisation axis
  refine .cons ⟨rfl, fun _ _ h => h _ (.head _), fun _ _ h => h _, fun _ h => .inr ⟨_, .head _, h⟩,
    .run _ rfl rfl (.inl fun _ _ _ _ => rfl) (fun env h => w_quantisation (.inl ⟨_, .head _, rfl⟩) env h),
    fun _ _ _ _ _ => trivial, fun h => absurd rfl h⟩ ?_
  -- pseudo-atomic energy
  refine .cons ⟨rfl, fun _ _ h => h _ (.head _), fun _ _ h => h _, fun _ h => .inr ⟨_, .head _, h⟩,
    .run _ rfl rfl (.inl fun _ _ _ _ => rfl) (fun env h => w_psEnergy (.inl ⟨_, .head _, rfl⟩) env h),
    fun _ _ _ _ _ => trivial, fun h => absurd rfl h⟩ ?_
  -- mass
  refine .cons ⟨rfl, fun _ _ h => h _ (.head _), fun _ _ h => h _, fun _ h => .inr ⟨_, .head _, h⟩,
    .run _ rfl rfl (.inl fun _ _ _ _ => rfl) (fun env h => w_mass (.inl ⟨_, .head _, rfl⟩) env h),
    fun _ _ _ _ _ => trivial, fun h => absurd rfl h⟩ ?_
  -- quadrupole moment
  refine .cons ⟨rfl, fun _ _ h => h _ (.head _), fun _ _ h => h _, fun _ h => .inr ⟨_, .head _, h⟩,
    .run _ rfl rfl (.inl fun _ _ _ _ => rfl) (fun env h => w_quadrupole (.inl ⟨_, .head _, rfl⟩) env h),
    fun _ _ _ _ _ => trivial, fun h => absurd rfl h⟩ ?_
  -- pseudopotentials
  refine .cons ⟨rfl, fun _ _ h => h _ (.head _), fun _ _ h => h _, fun _ h => .inr ⟨_, .head _, h⟩,
    .run _ rfl rfl (.inr ⟨rfl, .tail _ (.head _)⟩) (fun env h => w_pseudopot (.inl ⟨_, .head _, rfl⟩) env h),
    fun _ _ _ _ _ => trivial, fun h => absurd rfl h⟩ ?_
  -- pseudopotential report
  refine .cons ⟨rfl, fun _ _ h => h _ (.head _), fun _ _ h => h _, fun _ h => .inr ⟨_, .head _, h⟩,
    .run _ rfl rfl (.inl fun _ _ _ _ => rfl) (fun env h => w_push _ (.inl ⟨_, .head _, rfl⟩) _ env h),
    fun _ _ _ _ _ => trivial, fun h => absurd rfl h⟩ ?_
  -- pseudopotential debug
  refine .cons ⟨rfl, fun _ _ h => h _ (.head _), fun _ _ h => h _, fun _ h => .inr ⟨_, .head _, h⟩,
    .run _ rfl rfl (.inl fun _ _ _ _ => rfl) (fun env h => w_pspotDebug (.inl ⟨_, .head _, rfl⟩) env h),
    fun _ _ _ _ _ => trivial, fun h => absurd rfl h⟩ ?_
  -- pair params
  refine .cons ⟨rfl, fun _ _ h => h _ (.head _), fun _ _ h => h _, fun _ h => .inr ⟨_, .head _, h⟩,
    .run _ rfl rfl (.inl fun _ _ _ _ => rfl) (fun env h => w_push _ (.inl ⟨_, .head _, rfl⟩) _ env h),
    fun _ _ _ _ _ => trivial, fun h => absurd rfl h⟩ ?_
  -- dftd
  refine .cons ⟨rfl, fun _ _ h => h _ (.head _), fun _ _ h => h _, fun _ h => .inr ⟨_, .head _, h⟩,
    .run _ rfl rfl (.inl fun _ _ _ _ => rfl) (fun env h => w_store _ (.inl ⟨_, .head _, rfl⟩) _ env h),
    fun _ _ _ _ _ => trivial, fun h => absurd rfl h⟩ ?_
  -- scf
  refine .cons ⟨rfl, fun _ _ h => h _ (.head _), fun _ _ h => h _, fun _ h => .inr ⟨_, .head _, h⟩,
    .run _ rfl rfl (.inl fun _ _ _ _ => rfl) (fun env h => w_push _ (.inl ⟨_, .head _, rfl⟩) _ env h),
    fun _ _ _ _ _ => trivial, fun h => absurd rfl h⟩ ?_
  -- wvfn line min
  refine .cons ⟨rfl, fun _ _ h => h _ (.head _), fun _ _ h => h _, fun _ h => .inr ⟨_, .head _, h⟩,
    .run _ rfl rfl (.inl fun _ _ _ _ => rfl) (fun env h => w_push _ (.inl ⟨_, .head _, rfl⟩) _ env h),
    fun _ _ _ _ _ => trivial, fun h => absurd rfl h⟩ ?_
  -- occupancies
  refine .cons ⟨rfl, fun _ _ h => h _ (.head _), fun _ _ h => h _, fun _ h => .inr ⟨_, .head _, h⟩,
    .run _ rfl rfl (.inl fun _ _ _ _ => rfl) (fun env h => w_push _ (.inl ⟨_, .head _, rfl⟩) _ env h),
    fun _ _ _ _ _ => trivial, fun h => absurd rfl h⟩ ?_
  -- cut-off energies
  refine .cons ⟨rfl, fun _ _ h => h _ (.head _), fun _ _ h => h _, fun _ h => .inr ⟨_, .head _, h⟩,
    .cutoff rfl rfl rfl,
    fun _ _ _ _ => opens_cutoff, fun _ _ _ _ _ hg => lines_search hg⟩ ?_
  -- final energy
  refine .cons ⟨rfl, fun _ _ _ => rfl, fun _ _ _ _ => rfl, fun _ _ => .inl rfl,
    .run _ rfl rfl (.inl fun _ _ _ _ => rfl) (fun env h => w_energy (.inl ⟨_, .head _, rfl⟩) _ env h),
    fun _ _ _ _ _ => trivial, fun h => absurd rfl h⟩ ?_
  -- corrected energy
  refine .cons ⟨rfl, fun _ _ _ => rfl, fun _ _ _ _ => rfl, fun _ _ => .inl rfl,
    .run _ rfl rfl (.inl fun _ _ _ _ => rfl) (fun env h => w_energy (.inl ⟨_, .head _, rfl⟩) _ env h),
    fun _ _ _ _ _ => trivial, fun h => absurd rfl h⟩ ?_
  -- 0K energy
  refine .cons ⟨rfl, fun _ _ _ => rfl, fun _ _ _ _ => rfl, fun _ _ => .inl rfl,
    .run _ rfl rfl (.inl fun _ _ _ _ => rfl) (fun env h => w_energy (.inl ⟨_, .head _, rfl⟩) _ env h),
    fun _ _ _ _ _ => trivial, fun h => absurd rfl h⟩ ?_
  -- sedc correction
  refine .cons ⟨rfl, fun _ _ _ => rfl, fun _ _ _ _ => rfl, fun _ _ => .inl rfl,
    .run _ rfl rfl (.inl fun _ _ _ _ => rfl) (fun env h => w_energy (.inl ⟨_, .head _, rfl⟩) _ env h),
    fun _ _ _ _ _ => trivial, fun h => absurd rfl h⟩ ?_
  -- dispersion corrected
  refine .cons ⟨rfl, fun _ _ _ => rfl, fun _ _ _ _ => rfl, fun _ _ => .inl rfl,
    .run _ rfl rfl (.inl fun _ _ _ _ => rfl) (fun env h => w_energy (.inl ⟨_, .head _, rfl⟩) _ env h),
    fun _ _ _ _ _ => trivial, fun h => absurd rfl h⟩ ?_
  -- free energy
  refine .cons ⟨rfl, fun _ _ _ => rfl, fun _ _ _ _ => rfl, fun _ _ => .inl rfl,
    .run _ rfl rfl (.inl fun _ _ _ _ => rfl) (fun env h => w_energy (.inl ⟨_, .head _, rfl⟩) _ env h),
    fun _ _ _ _ _ => trivial, fun h => absurd rfl h⟩ ?_
  -- solvation energy
  refine .cons ⟨rfl, fun _ _ h => h _ (.head _), fun _ _ h => h _, fun _ h => .inr ⟨_, .head _, h⟩,
    .run _ rfl rfl (.inl fun _ _ _ _ => rfl) (fun env h => w_solvation (.inl ⟨_, .head _, rfl⟩) env h),
    fun _ _ _ _ _ => trivial, fun h => absurd rfl h⟩ ?_
  -- spin density
  refine .cons ⟨rfl, fun _ _ h => congrArg₂ or (h _ (.head _)) (h _ (.tail _ (.head _))), mono_or _ _, asked_or _ _,
    .run _ rfl rfl (.inl fun _ _ _ _ => rfl) (fun env h => w_spinDensity (.inl ⟨_, .head _, rfl⟩) (.inl ⟨_, .tail _ (.head _), rfl⟩) env h),
    fun _ _ _ _ _ => trivial, fun h => absurd rfl h⟩ ?_
  -- initial cell
  refine .cons ⟨rfl, fun _ _ h => h _ (.head _), fun _ _ h => h _, fun _ h => .inr ⟨_, .head _, h⟩,
    .run _ rfl rfl (.inl fun _ _ _ _ => rfl) (fun env h => w_store _ (.inl ⟨_, .head _, rfl⟩) _ env h),
    fun _ _ _ _ _ => trivial, fun h => absurd rfl h⟩ ?_
  -- symmetry
  refine .cons ⟨rfl, fun _ _ h => h _ (.head _), fun _ _ h => h _, fun _ h => .inr ⟨_, .head _, h⟩,
    .run _ rfl rfl (.inl fun _ _ _ _ => rfl) (fun env h => w_symmetry (.inl ⟨_, .head _, rfl⟩) (.inl ⟨_, .tail _ (.head _), rfl⟩) env h),
    fun _ _ _ _ _ => trivial, fun h => absurd rfl h⟩ ?_
  -- reactant or product
  refine .cons ⟨rfl, fun _ _ h => congrArg₂ and (h _ (.head _)) (h _ (.tail _ (.head _))), mono_and _ _, asked_and _ _,
    .run _ rfl rfl (.inl fun _ _ _ _ => rfl) (fun env h => w_endpoint (.inl ⟨_, .head _, rfl⟩) (.inl ⟨_, .tail _ (.head _), rfl⟩) env h),
    fun _ _ _ _ _ => trivial, fun h => absurd rfl h⟩ ?_
  -- labelled positions
  refine .cons ⟨rfl, fun _ _ h => h _ (.head _), fun _ _ h => h _, fun _ h => .inr ⟨_, .head _, h⟩,
    .run _ rfl rfl (.inl fun _ _ _ _ => rfl) (fun env h => w_labelled (.inl ⟨_, .head _, rfl⟩) (.inl ⟨_, .tail _ (.head _), rfl⟩) env h),
    fun _ _ _ _ _ => trivial, fun h => absurd rfl h⟩ ?_
  -- mixture positions
  refine .cons ⟨rfl, fun _ _ h => h _ (.head _), fun _ _ h => h _, fun _ h => .inr ⟨_, .head _, h⟩,
    .mixture rfl rfl (.head _),
    fun _ _ _ _ _ => trivial, fun h => absurd rfl h⟩ ?_
  -- initial positions
  refine .cons ⟨rfl, fun _ _ h => h _ (.head _), fun _ _ h => h _, fun _ h => .inr ⟨_, .head _, h⟩,
    .run _ rfl rfl (.inl fun _ _ _ _ => rfl) (fun env h => w_store _ (.inl ⟨_, .head _, rfl⟩) _ env h),
    fun _ _ _ _ _ => trivial, fun h => absurd rfl h⟩ ?_
  -- supercell
  refine .cons ⟨rfl, fun _ _ _ => rfl, fun _ _ _ _ => rfl, fun _ _ => .inl rfl,
    .run _ rfl rfl (.inl fun _ _ _ _ => rfl) (fun env h => w_supercell (.inl ⟨_, .head _, rfl⟩) env h),
    fun _ _ _ _ _ => trivial, fun h => absurd rfl h⟩ ?_
  -- initial velocities
  refine .cons ⟨rfl, fun _ _ h => h _ (.head _), fun _ _ h => h _, fun _ h => .inr ⟨_, .head _, h⟩,
    .run _ rfl rfl (.inl fun _ _ _ _ => rfl) (fun env h => w_store _ (.inl ⟨_, .head _, rfl⟩) _ env h),
    fun _ _ _ _ _ => trivial, fun h => absurd rfl h⟩ ?_
  -- initial spins
  refine .cons ⟨rfl, fun _ _ h => h _ (.head _), fun _ _ h => h _, fun _ h => .inr ⟨_, .head _, h⟩,
    .run _ rfl rfl (.inl fun _ _ _ _ => rfl) (fun env h => w_store _ (.inl ⟨_, .head _, rfl⟩) _ env h),
    fun _ _ _ _ _ => trivial, fun h => absurd rfl h⟩ ?_
  -- target stress
  refine .cons ⟨rfl, fun _ _ h => h _ (.head _), fun _ _ h => h _, fun _ h => .inr ⟨_, .head _, h⟩,
    .run _ rfl rfl (.inl fun _ _ _ _ => rfl) (fun env h => w_push _ (.inl ⟨_, .head _, rfl⟩) _ env h),
    fun _ _ _ _ _ => trivial, fun h => absurd rfl h⟩ ?_
  -- dedlne
  refine .cons ⟨rfl, fun _ _ _ => rfl, fun _ _ _ _ => rfl, fun _ _ => .inl rfl,
    .run _ rfl rfl (.inl fun _ _ _ _ => rfl) (fun env h => w_dedlne (.inl ⟨_, .head _, rfl⟩) env h),
    fun _ _ _ _ _ => trivial, fun h => absurd rfl h⟩ ?_
  -- k-points
  refine .cons ⟨rfl, fun _ _ h => h _ (.head _), fun _ _ h => h _, fun _ h => .inr ⟨_, .head _, h⟩,
    .run _ rfl rfl (.inl fun _ _ _ _ => rfl) (fun env h => w_store _ (.inl ⟨_, .head _, rfl⟩) _ env h),
    fun _ _ _ _ _ => trivial, fun h => absurd rfl h⟩ ?_
  -- k-points list
  refine .cons ⟨rfl, fun _ _ h => h _ (.head _), fun _ _ h => h _, fun _ h => .inr ⟨_, .head _, h⟩,
    .run _ rfl rfl (.inl fun _ _ _ _ => rfl) (fun env h => w_store _ (.inl ⟨_, .head _, rfl⟩) _ env h),
    fun _ _ _ _ _ => trivial, fun h => absurd rfl h⟩ ?_
  -- applied field
  refine .cons ⟨rfl, fun _ _ h => h _ (.head _), fun _ _ h => h _, fun _ h => .inr ⟨_, .head _, h⟩,
    .field rfl rfl (.head _),
    fun _ _ _ _ => opens_field, fun h => absurd rfl h⟩ ?_
  -- forces
  refine .cons ⟨rfl, fun _ _ h => h _ (.head _), fun _ _ h => h _, fun _ h => .inr ⟨_, .head _, h⟩,
    .run _ rfl rfl (.inl fun _ _ _ _ => rfl) (fun env h => w_kinds _ (.inl ⟨_, .head _, rfl⟩) _ env h),
    fun _ _ _ _ _ => trivial, fun h => absurd rfl h⟩ ?_
  -- force removal
  refine .cons ⟨rfl, fun _ _ h => h _ (.head _), fun _ _ h => h _, fun _ h => .inr ⟨_, .head _, h⟩,
    .run _ rfl rfl (.inl fun _ _ _ _ => rfl) (fun env h => w_comForce (.inl ⟨_, .head _, rfl⟩) env h),
    fun _ _ _ _ _ => trivial, fun h => absurd rfl h⟩ ?_
  -- stresses
  refine .cons ⟨rfl, fun _ _ h => h _ (.head _), fun _ _ h => h _, fun _ h => .inr ⟨_, .head _, h⟩,
    .run _ rfl rfl (.inl fun _ _ _ _ => rfl) (fun env h => w_kinds _ (.inl ⟨_, .head _, rfl⟩) _ env h),
    fun _ _ _ _ _ => trivial, fun h => absurd rfl h⟩ ?_
  -- phonons
  refine .cons ⟨rfl, fun _ _ h => h _ (.head _), fun _ _ h => h _, fun _ h => .inr ⟨_, .head _, h⟩,
    .run _ rfl rfl (.inl fun _ _ _ _ => rfl) (fun env h => w_store _ (.inl ⟨_, .head _, rfl⟩) _ env h),
    fun _ _ _ _ _ => trivial, fun h => absurd rfl h⟩ ?_
  -- phonon symmetry
  refine .cons ⟨rfl, fun _ _ h => h _ (.head _), fun _ _ h => h _, fun _ h => .inr ⟨_, .head _, h⟩,
    .run _ rfl rfl (.inl fun _ _ _ _ => rfl) (fun env h => w_push _ (.inl ⟨_, .head _, rfl⟩) _ env h),
    fun _ _ _ _ _ => trivial, fun h => absurd rfl h⟩ ?_
  -- dynamical matrix
  refine .cons ⟨rfl, fun _ _ h => h _ (.head _), fun _ _ h => h _, fun _ h => .inr ⟨_, .head _, h⟩,
    .run _ rfl rfl (.inl fun _ _ _ _ => rfl) (fun env h => w_store _ (.inl ⟨_, .head _, rfl⟩) _ env h),
    fun _ _ _ _ _ => trivial, fun h => absurd rfl h⟩ ?_
  -- raman
  refine .cons ⟨rfl, fun _ _ h => h _ (.head _), fun _ _ h => h _, fun _ h => .inr ⟨_, .head _, h⟩,
    .run _ rfl rfl (.inl fun _ _ s h => sim_raman s h) (fun env h => w_push _ (.inl ⟨_, .head _, rfl⟩) _ env h),
    fun _ _ _ _ _ => trivial, fun h => absurd rfl h⟩ ?_
  -- autosolvation
  refine .cons ⟨rfl, fun _ _ h => h _ (.head _), fun _ _ h => h _, fun _ h => .inr ⟨_, .head _, h⟩,
    .run _ rfl rfl (.inl fun _ _ _ _ => rfl) (fun env h => w_store _ (.inl ⟨_, .head _, rfl⟩) _ env h),
    fun _ _ _ _ _ => trivial, fun h => absurd rfl h⟩ ?_
  -- permittivity
  refine .cons ⟨rfl, fun _ _ h => h _ (.head _), fun _ _ h => h _, fun _ h => .inr ⟨_, .head _, h⟩,
    .run _ rfl rfl (.inl fun _ _ _ _ => rfl) (fun env h => w_twoMatrices _ _ (.inl ⟨_, .head _, rfl⟩) (.inl ⟨_, .tail _ (.head _), rfl⟩) env h),
    fun _ _ _ _ _ => trivial, fun h => absurd rfl h⟩ ?_
  -- polarisability
  refine .cons ⟨rfl, fun _ _ h => h _ (.head _), fun _ _ h => h _, fun _ h => .inr ⟨_, .head _, h⟩,
    .run _ rfl rfl (.inl fun _ _ _ _ => rfl) (fun env h => w_twoMatrices _ _ (.inl ⟨_, .head _, rfl⟩) (.inl ⟨_, .tail _ (.head _), rfl⟩) env h),
    fun _ _ _ _ _ => trivial, fun h => absurd rfl h⟩ ?_
  -- nlo
  refine .cons ⟨rfl, fun _ _ h => h _ (.head _), fun _ _ h => h _, fun _ h => .inr ⟨_, .head _, h⟩,
    .run _ rfl rfl (.inl fun _ _ _ _ => rfl) (fun env h => w_store _ (.inl ⟨_, .head _, rfl⟩) _ env h),
    fun _ _ _ _ _ => trivial, fun h => absurd rfl h⟩ ?_
  -- atomic displacements
  refine .cons ⟨rfl, fun _ _ h => h _ (.head _), fun _ _ h => h _, fun _ h => .inr ⟨_, .head _, h⟩,
    .run _ rfl rfl (.inl fun _ _ _ _ => rfl) (fun env h => w_store _ (.inl ⟨_, .head _, rfl⟩) _ env h),
    fun _ _ _ _ _ => trivial, fun h => absurd rfl h⟩ ?_
  -- thermodynamics
  refine .cons ⟨rfl, fun _ _ h => h _ (.head _), fun _ _ h => h _, fun _ h => .inr ⟨_, .head _, h⟩,
    .run _ rfl rfl (.inl fun _ _ _ _ => rfl) (fun env h => w_store _ (.inl ⟨_, .head _, rfl⟩) _ env h),
    fun _ _ _ _ _ => trivial, fun h => absurd rfl h⟩ ?_
  -- mulliken
  refine .cons ⟨rfl, fun _ _ h => h _ (.head _), fun _ _ h => h _, fun _ h => .inr ⟨_, .head _, h⟩,
    .run _ rfl rfl (.inl fun _ _ _ _ => rfl) (fun env h => w_store _ (.inl ⟨_, .head _, rfl⟩) _ env h),
    fun _ _ _ _ _ => trivial, fun h => absurd rfl h⟩ ?_
  -- born
  refine .cons ⟨rfl, fun _ _ h => h _ (.head _), fun _ _ h => h _, fun _ h => .inr ⟨_, .head _, h⟩,
    .run _ rfl rfl (.inl fun _ _ _ _ => rfl) (fun env h => w_push _ (.inl ⟨_, .head _, rfl⟩) _ env h),
    fun _ _ _ _ _ => trivial, fun h => absurd rfl h⟩ ?_
  -- orbital populations
  refine .cons ⟨rfl, fun _ _ h => h _ (.head _), fun _ _ h => h _, fun _ h => .inr ⟨_, .head _, h⟩,
    .run _ rfl rfl (.inl fun _ _ _ _ => rfl) (fun env h => w_store _ (.inl ⟨_, .head _, rfl⟩) _ env h),
    fun _ _ _ _ _ => trivial, fun h => absurd rfl h⟩ ?_
  -- bonds
  refine .cons ⟨rfl, fun _ _ h => h _ (.head _), fun _ _ h => h _, fun _ h => .inr ⟨_, .head _, h⟩,
    .run _ rfl rfl (.inl fun _ _ _ _ => rfl) (fun env h => w_store _ (.inl ⟨_, .head _, rfl⟩) _ env h),
    fun _ _ _ _ _ => trivial, fun h => absurd rfl h⟩ ?_
  -- hirshfeld
  refine .cons ⟨rfl, fun _ _ h => h _ (.head _), fun _ _ h => h _, fun _ h => .inr ⟨_, .head _, h⟩,
    .run _ rfl rfl (.inl fun _ _ _ _ => rfl) (fun env h => w_store _ (.inl ⟨_, .head _, rfl⟩) _ env h),
    fun _ _ _ _ _ => trivial, fun h => absurd rfl h⟩ ?_
  -- elf
  refine .cons ⟨rfl, fun _ _ h => h _ (.head _), fun _ _ h => h _, fun _ h => .inr ⟨_, .head _, h⟩,
    .run _ rfl rfl (.inl fun _ _ _ _ => rfl) (fun env h => w_store _ (.inl ⟨_, .head _, rfl⟩) _ env h),
    fun _ _ _ _ _ => trivial, fun h => absurd rfl h⟩ ?_
  -- md
  refine .cons ⟨rfl, fun _ _ h => h _ (.head _), fun _ _ h => h _, fun _ h => .inr ⟨_, .head _, h⟩,
    .run _ rfl rfl (.inl fun _ _ s h => sim_mdStep s h) (fun env h => w_mdStep (.inl ⟨_, .head _, rfl⟩) (.inl ⟨_, .tail _ (.head _), rfl⟩) env h),
    fun _ _ _ _ _ => trivial, fun h => absurd rfl h⟩ ?_
  -- md data
  refine .cons ⟨rfl, fun _ _ h => congrArg₂ or (h _ (.head _)) (h _ (.tail _ (.head _))), mono_or _ _, asked_or _ _,
    .run _ rfl rfl (.inl fun _ _ _ _ => rfl) (fun env h => w_mdData env h fun _ l hl hn => .inr ⟨l, hl, hn⟩),
    fun _ _ _ _ _ => trivial, fun _ _ _ _ _ hg => (lines_block _ _ _ hg).2⟩ ?_
  -- final configuration
  refine .cons ⟨rfl, fun _ _ h => congrArg₂ or (h _ (.head _)) (h _ (.tail _ (.head _))), mono_or _ _, asked_or _ _,
    .run _ rfl rfl (.inl fun _ _ _ _ => rfl) (fun env h => w_finalConfig (.inl ⟨_, .head _, rfl⟩) env h),
    fun _ _ _ _ _ => trivial, fun h => absurd rfl h⟩ ?_
  -- geometry iteration
  refine .cons ⟨rfl, fun _ _ h => h _ (.head _), fun _ _ h => h _, fun _ h => .inr ⟨_, .head _, h⟩,
    .geom rfl rfl rfl,
    fun _ _ _ _ => opens_geom, fun h => absurd rfl h⟩ ?_
  -- enthalpy
  refine .cons ⟨rfl, fun _ _ h => h _ (.head _), fun _ _ h => h _, fun _ h => .inr ⟨_, .head _, h⟩,
    .run _ rfl rfl (.inl fun _ _ _ _ => rfl) (fun env h => w_enthalpy (.inl ⟨_, .head _, rfl⟩) (.inl ⟨_, .tail _ (.head _), rfl⟩) env h),
    fun _ _ _ _ _ => trivial, fun h => absurd rfl h⟩ ?_
  -- trial guess
  refine .cons ⟨rfl, fun _ _ _ => rfl, fun _ _ _ _ => rfl, fun _ _ => .inl rfl,
    .run _ rfl rfl (.inl fun _ _ _ _ => rfl) (fun env h => w_trial (.inl ⟨_, .head _, rfl⟩) env h),
    fun _ _ _ _ _ => trivial, fun h => absurd rfl h⟩ ?_
  -- final item
  refine .cons ⟨rfl, fun _ _ h => h _ (.head _), fun _ _ h => h _, fun _ h => .inr ⟨_, .head _, h⟩,
    .run _ rfl rfl (.inl fun _ _ _ _ => rfl) (fun env h => w_finalItem (.inl ⟨_, .head _, rfl⟩) env h),
    fun _ _ _ _ _ => trivial, fun h => absurd rfl h⟩ ?_
  -- geometry table
  refine .cons ⟨rfl, fun _ _ h => h _ (.head _), fun _ _ h => h _, fun _ h => .inr ⟨_, .head _, h⟩,
    .run _ rfl rfl (.inl fun _ _ _ _ => rfl) (fun env h => w_push _ (.inl ⟨_, .head _, rfl⟩) _ env h),
    fun _ _ _ _ _ => trivial, fun h => absurd rfl h⟩ ?_
  -- internal constraints
  refine .cons ⟨rfl, fun _ _ h => h _ (.head _), fun _ _ h => h _, fun _ h => .inr ⟨_, .head _, h⟩,
    .run _ rfl rfl (.inl fun _ _ _ _ => rfl) (fun env h => w_store _ (.inl ⟨_, .head _, rfl⟩) _ env h),
    fun _ _ _ _ _ => trivial, fun h => absurd rfl h⟩ ?_
  -- delocalised table
  refine .cons ⟨rfl, fun _ _ h => h _ (.head _), fun _ _ h => h _, fun _ h => .inr ⟨_, .head _, h⟩,
    .run _ rfl rfl (.inl fun _ _ _ _ => rfl) (fun env h => w_merge _ (.inl ⟨_, .head _, rfl⟩) _ env h),
    fun _ _ _ _ _ => trivial, fun h => absurd rfl h⟩ ?_
  -- active space
  refine .cons ⟨rfl, fun _ _ h => h _ (.head _), fun _ _ h => h _, fun _ h => .inr ⟨_, .head _, h⟩,
    .run _ rfl rfl (.inl fun _ _ _ _ => rfl) (fun env h => w_merge _ (.inl ⟨_, .head _, rfl⟩) _ env h),
    fun _ _ _ _ _ => trivial, fun h => absurd rfl h⟩ ?_
  -- tddft
  refine .cons ⟨rfl, fun _ _ h => h _ (.head _), fun _ _ h => h _, fun _ h => .inr ⟨_, .head _, h⟩,
    .run _ rfl rfl (.inl fun _ _ _ _ => rfl) (fun env h => w_store _ (.inl ⟨_, .head _, rfl⟩) _ env h),
    fun _ _ _ _ _ => trivial, fun h => absurd rfl h⟩ ?_
  -- band structure
  refine .cons ⟨rfl, fun _ _ h => h _ (.head _), fun _ _ h => h _, fun _ h => .inr ⟨_, .head _, h⟩,
    .run _ rfl rfl (.inl fun _ _ _ _ => rfl) (fun env h => w_store _ (.inl ⟨_, .head _, rfl⟩) _ env h),
    fun _ _ _ _ _ => trivial, fun h => absurd rfl h⟩ ?_
  -- dipole
  refine .cons ⟨rfl, fun _ _ h => h _ (.head _), fun _ _ h => h _, fun _ h => .inr ⟨_, .head _, h⟩,
    .run _ rfl rfl (.inl fun _ _ _ _ => rfl) (fun env h => w_store _ (.inl ⟨_, .head _, rfl⟩) _ env h),
    fun _ _ _ _ _ => trivial, fun h => absurd rfl h⟩ ?_
  -- shielding
  refine .cons ⟨rfl, fun _ _ h => h _ (.head _), fun _ _ h => h _, fun _ h => .inr ⟨_, .head _, h⟩,
    .run _ rfl rfl (.inl fun _ _ _ _ => rfl) (fun env h => w_push _ (.inl ⟨_, .head _, rfl⟩) _ env h),
    fun _ _ _ _ _ => trivial, fun h => absurd rfl h⟩ ?_
  -- shielding and gradient
  refine .cons ⟨rfl, fun _ _ h => h _ (.head _), fun _ _ h => h _, fun _ h => .inr ⟨_, .head _, h⟩,
    .run _ rfl rfl (.inl fun _ _ _ _ => rfl) (fun env h => w_push _ (.inl ⟨_, .head _, rfl⟩) _ env h),
    fun _ _ _ _ _ => trivial, fun h => absurd rfl h⟩ ?_
  -- field gradient
  refine .cons ⟨rfl, fun _ _ h => h _ (.head _), fun _ _ h => h _, fun _ h => .inr ⟨_, .head _, h⟩,
    .run _ rfl rfl (.inl fun _ _ _ _ => rfl) (fun env h => w_push _ (.inl ⟨_, .head _, rfl⟩) _ env h),
    fun _ _ _ _ _ => trivial, fun h => absurd rfl h⟩ ?_
  -- j-coupling
  refine .cons ⟨rfl, fun _ _ h => h _ (.head _), fun _ _ h => h _, fun _ h => .inr ⟨_, .head _, h⟩,
    .run _ rfl rfl (.inl fun _ _ _ _ => rfl) (fun env h => w_push _ (.inl ⟨_, .head _, rfl⟩) _ env h),
    fun _ _ _ _ _ => trivial, fun h => absurd rfl h⟩ ?_
  -- hyperfine
  refine .cons ⟨rfl, fun _ _ h => h _ (.head _), fun _ _ h => h _, fun _ h => .inr ⟨_, .head _, h⟩,
    .run _ rfl rfl (.inl fun _ _ _ _ => rfl) (fun env h => w_push _ (.inl ⟨_, .head _, rfl⟩) _ env h),
    fun _ _ _ _ _ => trivial, fun h => absurd rfl h⟩ ?_
  -- elastic constants
  refine .cons ⟨rfl, fun _ _ h => h _ (.head _), fun _ _ h => h _, fun _ h => .inr ⟨_, .head _, h⟩,
    .run _ rfl rfl (.inl fun _ _ _ _ => rfl) (fun env h => w_elasticItem (.inl ⟨_, .head _, rfl⟩) _ h.block),
    fun _ _ _ _ _ => trivial, fun h => absurd rfl h⟩ ?_
  -- compliance
  refine .cons ⟨rfl, fun _ _ h => h _ (.head _), fun _ _ h => h _, fun _ h => .inr ⟨_, .head _, h⟩,
    .run _ rfl rfl (.inl fun _ _ _ _ => rfl) (fun env h => w_elasticItem (.inl ⟨_, .head _, rfl⟩) _ h.block),
    fun _ _ _ _ _ => trivial, fun h => absurd rfl h⟩ ?_
  -- contribution
  refine .cons ⟨rfl, fun _ _ h => h _ (.head _), fun _ _ h => h _, fun _ h => .inr ⟨_, .head _, h⟩,
    .run _ rfl rfl (.inl fun _ _ _ _ => rfl) (fun env h => w_contribution (.inl ⟨_, .head _, rfl⟩) env h),
    fun _ _ _ _ _ => trivial, fun h => absurd rfl h⟩ ?_
  -- elastic properties
  refine .cons ⟨rfl, fun _ _ h => h _ (.head _), fun _ _ h => h _, fun _ h => .inr ⟨_, .head _, h⟩,
    .run _ rfl rfl (.inl fun _ _ _ _ => rfl) (fun env h => w_merge _ (.inl ⟨_, .head _, rfl⟩) _ env h),
    fun _ _ _ _ _ => trivial, fun h => absurd rfl h⟩ ?_
  -- berry phase verbose
  refine .cons ⟨rfl, fun _ _ h => h _ (.head _), fun _ _ h => h _, fun _ h => .inr ⟨_, .head _, h⟩,
    .run _ rfl rfl (.inl fun _ _ _ _ => rfl) (fun env h => w_merge _ (.inl ⟨_, .head _, rfl⟩) _ env h),
    fun _ _ _ _ _ => trivial, fun h => absurd rfl h⟩ ?_
  -- berry phase
  refine .cons ⟨rfl, fun _ _ h => h _ (.head _), fun _ _ h => h _, fun _ h => .inr ⟨_, .head _, h⟩,
    .run _ rfl rfl (.inl fun _ _ _ _ => rfl) (fun env h => w_merge _ (.inl ⟨_, .head _, rfl⟩) _ env h),
    fun _ _ _ _ _ => trivial, fun h => absurd rfl h⟩ ?_
  -- delta scf
  refine .cons ⟨rfl, fun _ _ h => h _ (.head _), fun _ _ h => h _, fun _ h => .inr ⟨_, .head _, h⟩,
    .run _ rfl rfl (.inl fun _ _ _ _ => rfl) (fun env h => w_store _ (.inl ⟨_, .head _, rfl⟩) _ env h),
    fun _ _ _ _ _ => trivial, fun h => absurd rfl h⟩ ?_
  -- external files
  refine .cons ⟨rfl, fun _ _ h => h _ (.head _), fun _ _ h => h _, fun _ h => .inr ⟨_, .head _, h⟩,
    .run _ rfl rfl (.inl fun _ _ s h => sim_external s h) (fun env h => w_external (.inl ⟨_, .head _, rfl⟩) env h),
    fun _ _ _ _ _ => trivial, fun h => absurd rfl h⟩ ?_
  exact .nil

end Verif.Castep
