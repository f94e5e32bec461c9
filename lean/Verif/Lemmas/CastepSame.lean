import Verif.Lemmas.CastepFrame
/- Operations on a run seen through a set of keys. -/
namespace Verif.Castep
open Verif Verif.Spec

variable {K : Key → Bool}

theorem restrict_set_in (r : Run) (k : Key) (v : PyVal) (h : K k = true) :
    restrict K (r.set k v) = Dict.set (restrict K r) k v := by
  induction r with
  | nil => simp [restrict, Dict.set, h]
  | cons kv r ih =>
    obtain ⟨k', v'⟩ := kv
    simp only [restrict] at ih ⊢
    by_cases hk : k' = k
    · subst hk; simp [Dict.set, h]
    · by_cases hK : K k' = true
      · simp [Dict.set, hk, hK, ih]
      · simp [Dict.set, hk, hK, ih]

theorem restrict_set_out (r : Run) (k : Key) (v : PyVal) (h : K k = false) :
    restrict K (r.set k v) = restrict K r := by
  induction r with
  | nil => simp [restrict, Dict.set, h]
  | cons kv r ih =>
    obtain ⟨k', v'⟩ := kv
    simp only [restrict] at ih ⊢
    by_cases hk : k' = k
    · subst hk; simp [Dict.set, h]
    · simp only [Dict.set, hk, if_false, List.filter_cons, ih]

theorem get?_restrict (r : Run) (k : Key) (h : K k = true) : Dict.get? (restrict K r) k = Dict.get? r k := by
  induction r with
  | nil => rfl
  | cons kv r ih =>
    obtain ⟨k', v'⟩ := kv
    simp only [restrict] at ih ⊢
    by_cases hk : k' = k
    · subst hk; simp [Dict.get?, h]
    · by_cases hK : K k' = true
      · simp [Dict.get?, hk, hK, ih]
      · simp [Dict.get?, hk, hK, ih]

theorem restrict_erase_in (r : Run) (k : Key) (h : K k = true) :
    restrict K (r.erase k) = Dict.erase (restrict K r) k := by
  induction r with
  | nil => rfl
  | cons kv r ih =>
    obtain ⟨k', v'⟩ := kv
    simp only [restrict] at ih ⊢
    by_cases hk : k' = k
    · subst hk; simp [Dict.erase, h]
    · by_cases hK : K k' = true
      · simp [Dict.erase, hk, hK, ih]
      · simp [Dict.erase, hk, hK, ih]

theorem restrict_erase_out (r : Run) (k : Key) (h : K k = false) : restrict K (r.erase k) = restrict K r := by
  induction r with
  | nil => rfl
  | cons kv r ih =>
    obtain ⟨k', v'⟩ := kv
    simp only [restrict] at ih ⊢
    by_cases hk : k' = k
    · subst hk; simp [Dict.erase, h]
    · simp only [Dict.erase, hk, if_false, List.filter_cons, ih]

/-- What the operation leaves under the keys depends on what was there. -/
def Same (K : Key → Bool) (p : Run → PyM Run) : Prop :=
  ∀ r r' r1 r1', p r = .ok r1 → p r' = .ok r1' → restrict K r = restrict K r' → restrict K r1 = restrict K r1'

/-- The operation leaves what is under the keys. -/
def Skips (K : Key → Bool) (p : Run → PyM Run) : Prop := ∀ r r1, p r = .ok r1 → restrict K r1 = restrict K r

theorem Wr.same (ws : Wr) : Same K ws.run := by
  induction ws with
  | nil => intro r r' r1 r1' h h' e; cases h; cases h'; exact e
  | cons kg ws ih =>
    obtain ⟨k, g⟩ := kg
    intro r r' r1 r1' h h' e
    rw [Wr.run] at h h'
    split at h
    · cases h
    rename_i v hv
    split at h'
    · cases h'
    rename_i v' hv'
    refine ih _ _ _ _ h h' ?_
    cases hK : K k with
    | true =>
      rw [restrict_set_in _ _ _ hK, restrict_set_in _ _ _ hK, e]
      congr 1
      rw [← get?_restrict r k hK, e, get?_restrict r' k hK, hv'] at hv
      exact (Except.ok.inj hv).symm
    | false => rw [restrict_set_out _ _ _ hK, restrict_set_out _ _ _ hK, e]

theorem Wr.skips (ws : Wr) (hw : ∀ kg ∈ ws, K kg.1 = false) : Skips K ws.run := by
  induction ws with
  | nil => intro r r1 h; cases h; rfl
  | cons kg ws ih =>
    obtain ⟨k, g⟩ := kg
    intro r r1 h
    rw [Wr.run] at h
    split at h
    · cases h
    rw [ih (fun x hx => hw x (by simp [hx])) _ _ h, restrict_set_out _ _ _ (hw (k, g) (by simp))]

theorem Writes.same {P : Key → Prop} {p : Run → PyM Run} (h : Writes P p) : Same K p := by
  obtain ⟨ws, -, h2⟩ := h
  intro r r' r1 r1' h3 h4 e
  exact ws.same _ _ _ _ (h2 _ _ h3) (h2 _ _ h4) e

theorem Writes.skips {P : Key → Prop} {p : Run → PyM Run} (h : Writes P p) (hK : ∀ k, P k → K k = false) :
    Skips K p := by
  obtain ⟨ws, h1, h2⟩ := h
  intro r r1 h3
  exact ws.skips (fun kg hkg => hK _ (h1 kg hkg)) _ _ (h2 _ _ h3)

/-! ### Keys -/

/-- The keys of the first run are keys of the second. -/
def Sub (r r' : Run) : Prop := ∀ k ∈ r.keys, k ∈ r'.keys

theorem Wr.adds (ws : Wr) : ∀ r r1, ws.run r = .ok r1 → Sub r r1 := by
  induction ws with
  | nil => intro r r1 h; cases h; exact fun _ h => h
  | cons kg ws ih =>
    obtain ⟨k, g⟩ := kg
    intro r r1 h
    rw [Wr.run] at h
    split at h
    · cases h
    exact fun x hx => ih _ _ h x ((Dict.mem_keys_set _ _ _ _).2 (.inr hx))

theorem Wr.grows (ws : Wr) : ∀ r r' r1 r1', ws.run r = .ok r1 → ws.run r' = .ok r1' → Sub r r' → Sub r1 r1' := by
  induction ws with
  | nil => intro r r' r1 r1' h h' e; cases h; cases h'; exact e
  | cons kg ws ih =>
    obtain ⟨k, g⟩ := kg
    intro r r' r1 r1' h h' e
    rw [Wr.run] at h h'
    split at h
    · cases h
    split at h'
    · cases h'
    refine ih _ _ _ _ h h' ?_
    intro x hx
    rcases (Dict.mem_keys_set _ _ _ _).1 hx with hx | hx
    · exact (Dict.mem_keys_set _ _ _ _).2 (.inl hx)
    · exact (Dict.mem_keys_set _ _ _ _).2 (.inr (e x hx))

theorem Writes.adds {P : Key → Prop} {p : Run → PyM Run} (h : Writes P p) {r r1 : Run} (hp : p r = .ok r1) :
    Sub r r1 := by
  obtain ⟨ws, -, h2⟩ := h
  exact ws.adds _ _ (h2 _ _ hp)

theorem Writes.grows {P : Key → Prop} {p : Run → PyM Run} (h : Writes P p) {r r' r1 r1' : Run} (hp : p r = .ok r1)
    (hp' : p r' = .ok r1') (e : Sub r r') : Sub r1 r1' := by
  obtain ⟨ws, -, h2⟩ := h
  exact ws.grows _ _ _ _ (h2 _ _ hp) (h2 _ _ hp') e

/-! ### Geometry iterations -/

theorem restrict_ensure_in (r : Run) (k : Key) (v : PyVal) (h : K k = true) :
    restrict K (ensure r k v) = ensure (restrict K r) k v := by
  simp only [ensure, mem_iff, get?_restrict r k h]
  split
  · rfl
  · exact restrict_set_in _ _ _ h

theorem restrict_ensure_out (r : Run) (k : Key) (v : PyVal) (h : K k = false) :
    restrict K (ensure r k v) = restrict K r := by
  simp only [ensure]
  split
  · rfl
  · exact restrict_set_out _ _ _ h

theorem restrict_erases_in (ks : List Key) (h : ∀ k ∈ ks, K k = true) (r : Run) :
    restrict K (ks.foldl (fun r k => r.erase k) r) = ks.foldl (fun r k => Dict.erase r k) (restrict K r) := by
  induction ks generalizing r with
  | nil => rfl
  | cons k ks ih =>
    simp only [List.foldl_cons]
    rw [ih (fun x hx => h x (by simp [hx])), restrict_erase_in _ _ (h k (by simp))]

theorem restrict_erases_out (ks : List Key) (h : ∀ k ∈ ks, K k = false) (r : Run) :
    restrict K (ks.foldl (fun r k => r.erase k) r) = restrict K r := by
  induction ks generalizing r with
  | nil => rfl
  | cons k ks ih =>
    simp only [List.foldl_cons]
    rw [ih (fun x hx => h x (by simp [hx])), restrict_erase_out _ _ (h k (by simp))]

theorem first_geom : ∀ k ∈ FIRST_KEYS, ∃ n ∈ geomKeys, k = .str n := by decide +kernel
theorem moved_geom : ∀ k ∈ MOVED_KEYS, ∃ n ∈ geomKeys, k = .str n := by decide +kernel

theorem filter_restrict (r : Run) (p : Key × PyVal → Bool) (h : ∀ kv, p kv = true → K kv.1 = true) :
    List.filter p (restrict K r) = List.filter p r := by
  rw [restrict, List.filter_filter]
  congr 1
  funext kv
  cases hp : p kv with
  | true => simp [h kv hp]
  | false => rfl

theorem firstIteration_in (hK : ∀ n ∈ geomKeys, K (.str n) = true) (r : Run) (g : Dict Key PyVal) :
    firstIteration (restrict K r) g = (restrict K (firstIteration r g).1, (firstIteration r g).2) := by
  unfold firstIteration
  split
  · rfl
  · rw [filter_restrict]
    · dsimp only
      rw [restrict_erases_in]
      intro k hk
      obtain ⟨n, hn, rfl⟩ := moved_geom k hk
      exact hK n hn
    · intro kv hkv
      obtain ⟨n, hn, he⟩ := first_geom kv.1 (by simpa using hkv)
      rw [he]
      exact hK n hn

theorem firstIteration_out (hK : ∀ n ∈ geomKeys, K (.str n) = false) (r : Run) (g : Dict Key PyVal) :
    restrict K (firstIteration r g).1 = restrict K r := by
  unfold firstIteration
  split
  · rfl
  · refine restrict_erases_out _ ?_ _
    intro k hk
    obtain ⟨n, hn, rfl⟩ := moved_geom k hk
    exact hK n hn

/-- What the iteration does after the entry exists. -/
theorem geomIteration_ok {env : Env} {h : Hit} {r r1 : Run} (hr : geomIteration env h r = .ok r1) :
    ∃ g data g', Dict.get? (ensure r (.str (py"geom_opt"))) (.str (py"geom_opt")) = some (.dict g) ∧
      stepData env h.block = .ok data ∧
      MdGeom.appendTo (firstIteration (ensure r (.str (py"geom_opt"))) g).2 (.str (py"iterations")) (.dict data) = .ok g' ∧
      r1 = Dict.set (firstIteration (ensure r (.str (py"geom_opt"))) g).1 (.str (py"geom_opt")) (.dict g') := by
  unfold geomIteration at hr
  dsimp only at hr
  split at hr
  · rename_i g hg
    obtain ⟨data, h1, hr⟩ := bind_ok hr
    obtain ⟨g', h2, hr⟩ := bind_ok hr
    cases hr
    exact ⟨g, data, g', hg, h1, h2, rfl⟩
  · cases hr

theorem geom_same (hK : ∀ n ∈ geomKeys, K (.str n) = true) (env : Env) (h : Hit) : Same K (geomIteration env h) := by
  have key : ∀ r r1, geomIteration env h r = .ok r1 → geomIteration env h (restrict K r) = .ok (restrict K r1) := by
    intro r r1 hr
    obtain ⟨g, data, g', h1, h2, h3, rfl⟩ := geomIteration_ok hr
    have hg : K (.str (py"geom_opt")) = true := hK _ (by decide)
    unfold geomIteration
    dsimp only
    rw [← restrict_ensure_in r _ _ hg, get?_restrict _ _ hg, h1]
    dsimp only
    rw [firstIteration_in hK, h2]
    simp only [bind, Except.bind, h3]
    rw [restrict_set_in _ _ _ hg]
    rfl
  intro r r' r1 r1' hr hr' e
  have h1 := key _ _ hr
  rw [e, key _ _ hr'] at h1
  exact (Except.ok.inj h1).symm

theorem geom_skips (hK : ∀ n ∈ geomKeys, K (.str n) = false) (env : Env) (h : Hit) : Skips K (geomIteration env h) := by
  intro r r1 hr
  obtain ⟨g, data, g', h1, h2, h3, rfl⟩ := geomIteration_ok hr
  have hg : K (.str (py"geom_opt")) = false := hK _ (by decide)
  rw [restrict_set_out _ _ _ hg, firstIteration_out hK, restrict_ensure_out _ _ _ hg]

end Verif.Castep
