import Verif.Py.Regex
/-
Reasoning about the regular-expression engine.

* `Re.run r s k`: the first success of `r` from `s` that the continuation `k` accepts, i.e. matching
  with backtracking.  Equations for every constructor.
* `Re.Lang r w`: the (context-free) language of `r`; `m_sound`: every success consumes a word of it.
-/
namespace Verif
namespace Re

/-! ### Continuations -/

/-- First success accepted by `k`. -/
def run (r : Re) (s : St) (k : St → Option β) : Option β := (m r s).findSome? k

theorem head?_eq_run (r : Re) (s : St) : (m r s).head? = run r s some := by
  rw [run]; cases m r s <;> simp

theorem findSome?_flatMap (l : List α) (f : α → List β) (k : β → Option γ) :
    (l.flatMap f).findSome? k = l.findSome? fun a => (f a).findSome? k := by
  induction l with
  | nil => simp
  | cons a l ih => simp [List.findSome?_append, ih, List.findSome?_cons]; cases (f a).findSome? k <;> simp

@[simp] theorem run_eps (s : St) (k : St → Option β) : run .eps s k = k s := by
  simp [run, m]

@[simp] theorem run_seq (a b : Re) (s : St) (k : St → Option β) :
    run (.seq a b) s k = run a s fun t => run b t k := by
  simp [run, m, findSome?_flatMap]

@[simp] theorem run_alt (a b : Re) (s : St) (k : St → Option β) :
    run (.alt a b) s k = (run a s k).or (run b s k) := by
  simp [run, m, List.findSome?_append]

@[simp] theorem run_set_cons (cs : CSet) (pre post : Str) (c : Nat) (caps) (k : St → Option β) :
    run (.set cs) ⟨pre, c :: post, caps⟩ k = if cs.has c then k ⟨c :: pre, post, caps⟩ else none := by
  simp only [run, m]; split <;> simp

@[simp] theorem run_set_nil (cs : CSet) (pre : Str) (caps) (k : St → Option β) :
    run (.set cs) ⟨pre, [], caps⟩ k = none := by
  simp [run, m]

theorem run_group (n : Nat) (r : Re) (s : St) (k : St → Option β) :
    run (.group n r) s k = run r s fun t => k { t with caps := (n, s.upTo t) :: t.caps } := by
  simp [run, m, List.findSome?_map, Function.comp_def]

theorem isEmpty_m (r : Re) (s : St) : (m r s).isEmpty = (run r s some).isNone := by
  rw [← head?_eq_run]; cases m r s <;> simp

theorem run_ahead (neg : Bool) (r : Re) (s : St) (k : St → Option β) :
    run (.ahead neg r) s k = if (run r s some).isNone == neg then k s else none := by
  rw [run, m, isEmpty_m]; by_cases h : ((run r s some).isNone == neg) = true
  · rw [if_pos h, if_pos h]; simp
  · rw [if_neg h, if_neg h]; simp

theorem run_behind_nil (neg : Bool) (cs : CSet) (post : Str) (caps) (k : St → Option β) :
    run (.behind neg cs) ⟨[], post, caps⟩ k = if neg then k ⟨[], post, caps⟩ else none := by
  simp only [run, m]; cases neg <;> simp

theorem run_behind_cons (neg : Bool) (cs : CSet) (c : Nat) (pre post : Str) (caps) (k : St → Option β) :
    run (.behind neg cs) ⟨c :: pre, post, caps⟩ k
      = if cs.has c != neg then k ⟨c :: pre, post, caps⟩ else none := by
  simp only [run, m]; split <;> simp

theorem run_bol (s : St) (k : St → Option β) :
    run .bol s k = if s.pre.isEmpty then k s else none := by
  rw [run, m, atBol]; by_cases h : s.pre.isEmpty = true
  · rw [if_pos h, if_pos h]; simp
  · rw [if_neg h, if_neg h]; simp

theorem run_eol (s : St) (k : St → Option β) :
    run .eol s k = if s.post.isEmpty || s.post == [10] then k s else none := by
  rw [run, m, atEol]; by_cases h : (s.post.isEmpty || s.post == [10]) = true
  · rw [if_pos h, if_pos h]; simp
  · rw [if_neg h, if_neg h]; simp

theorem run_wordB (neg : Bool) (s : St) (k : St → Option β) :
    run (.wordB neg) s k = if (wordBefore s != wordAfter s) != neg then k s else none := by
  simp only [run, m]; split <;> simp

theorem run_cond (n : Nat) (a b : Re) (s : St) (k : St → Option β) :
    run (.cond n a b) s k = if (s.cap n).isSome then run a s k else run b s k := by
  simp only [run, m]; split <;> rfl

/-! ### Repetition -/

/-- More fuel than characters left changes nothing. -/
theorem repM_fuel (step : St → List St) (g : Bool) : ∀ (f f' mn : Nat) (mx : Option Nat) (s : St),
    s.post.length ≤ f → s.post.length ≤ f' → repM step g f mn mx s = repM step g f' mn mx s := by
  have key : ∀ (f mn : Nat) (mx : Option Nat) (s : St), s.post.length ≤ f →
      repM step g (f + 1) mn mx s = repM step g f mn mx s := by
    intro f
    induction f with
    | zero =>
      intro mn mx s h
      have h0 : s.post.length = 0 := by omega
      simp only [repM, h0, Nat.not_lt_zero, if_false]
      have : (step s).flatMap (fun _ => ([] : List St)) = [] := by simp
      simp only [this, ite_self, List.nil_append, List.append_nil]
    | succ f ih =>
      intro mn mx s h
      rw [repM, repM]
      have hmore : (step s).flatMap (fun t => if t.post.length < s.post.length then
            repM step g (f + 1) (mn - 1) (mx.map (· - 1)) t else [])
          = (step s).flatMap (fun t => if t.post.length < s.post.length then
            repM step g f (mn - 1) (mx.map (· - 1)) t else []) := by
        congr 1
        funext t
        split
        · exact ih _ _ _ (by omega)
        · rfl
      simp only [hmore]
  have up : ∀ (d f mn : Nat) (mx : Option Nat) (s : St), s.post.length ≤ f →
      repM step g (f + d) mn mx s = repM step g f mn mx s := by
    intro d
    induction d with
    | zero => intros; rfl
    | succ d ih =>
      intro f mn mx s h
      rw [Nat.add_succ, key (f + d) mn mx s (by omega), ih f mn mx s h]
  intro f f' mn mx s h h'
  have a := up (f - s.post.length) s.post.length mn mx s (by omega)
  have b := up (f' - s.post.length) s.post.length mn mx s (by omega)
  rw [show s.post.length + (f - s.post.length) = f by omega] at a
  rw [show s.post.length + (f' - s.post.length) = f' by omega] at b
  rw [a, b]

/-- One step of a greedy repetition. -/
theorem run_rep_greedy (mn : Nat) (mx : Option Nat) (r : Re) (s : St) (k : St → Option β) :
    run (.rep true mn mx r) s k =
      (if mx = some 0 then none else run r s fun t =>
        if t.post.length < s.post.length then run (.rep true (mn - 1) (mx.map (· - 1)) r) t k else none).or
      (if mn = 0 then k s else none) := by
  have h1 : m (.rep true mn mx r) s = repM (m r) true (mn + s.post.length + 1) mn mx s := by
    rw [m]; exact repM_fuel _ _ _ _ _ _ _ (by omega) (by omega)
  rw [run, h1, repM]
  simp only [if_true, List.findSome?_append]
  congr 1
  · split
    · simp
    · rw [findSome?_flatMap]
      simp only [run]
      congr 1
      funext t
      split
      · rw [m]; rw [repM_fuel (m r) true _ (mn - 1 + t.post.length) _ _ t (by omega) (by omega)]
      · simp
  · split <;> simp

/-- One step of a lazy repetition. -/
theorem run_rep_lazy (mn : Nat) (mx : Option Nat) (r : Re) (s : St) (k : St → Option β) :
    run (.rep false mn mx r) s k =
      (if mn = 0 then k s else none).or
      (if mx = some 0 then none else run r s fun t =>
        if t.post.length < s.post.length then run (.rep false (mn - 1) (mx.map (· - 1)) r) t k
        else none) := by
  have h1 : m (.rep false mn mx r) s = repM (m r) false (mn + s.post.length + 1) mn mx s := by
    rw [m]; exact repM_fuel _ _ _ _ _ _ _ (by omega) (by omega)
  rw [run, h1, repM]
  simp only [Bool.false_eq_true, if_false, List.findSome?_append]
  congr 1
  · split <;> simp
  · split
    · simp
    · rw [findSome?_flatMap]
      simp only [run]
      congr 1
      funext t
      split
      · rw [m]; rw [repM_fuel (m r) false _ (mn - 1 + t.post.length) _ _ t (by omega) (by omega)]
      · simp

/-! ### Language -/

/-- The words `r` can consume (zero-width conditions ignored). -/
def Lang : Re → Str → Prop
  | .eps, w => w = []
  | .set cs, w => ∃ c, cs.has c = true ∧ w = [c]
  | .seq a b, w => ∃ u v, w = u ++ v ∧ Lang a u ∧ Lang b v
  | .alt a b, w => Lang a w ∨ Lang b w
  | .rep _ mn mx r, w => ∃ ws : List Str, w = ws.flatten ∧ mn ≤ ws.length ∧
      (∀ M, mx = some M → ws.length ≤ M) ∧ ∀ u ∈ ws, Lang r u
  | .group _ r, w => Lang r w
  | .ahead _ _, w | .behind _ _, w | .bol, w | .eol, w | .wordB _, w => w = []
  | .backref _ _, _ => True
  | .cond _ a b, w => Lang a w ∨ Lang b w

/-- Groups of an expression with their bodies. -/
def groupsOf : Re → List (Nat × Re)
  | .seq a b | .alt a b | .cond _ a b => groupsOf a ++ groupsOf b
  | .rep _ _ _ r => groupsOf r
  | .group n r => (n, r) :: groupsOf r
  | _ => []

/-- `t` is reachable from `s` by consuming `w` (and capturing only groups of `G`). -/
structure Step (G : List (Nat × Re)) (s t : St) (w : Str) : Prop where
  post : s.post = w ++ t.post
  pre : t.pre = w.reverse ++ s.pre
  caps : ∃ new, t.caps = new ++ s.caps ∧ ∀ p ∈ new, ∃ r, (p.1, r) ∈ G ∧ Lang r p.2

theorem Step.refl (G) (s : St) : Step G s s [] := ⟨by simp, by simp, [], by simp, by simp⟩

theorem Step.trans {G} {s t u : St} {v w : Str} (h : Step G s t v) (h' : Step G t u w) :
    Step G s u (v ++ w) := by
  obtain ⟨c, hc, hc'⟩ := h.caps
  obtain ⟨d, hd, hd'⟩ := h'.caps
  refine ⟨by rw [h.post, h'.post, List.append_assoc], by rw [h'.pre, h.pre]; simp, d ++ c, ?_, ?_⟩
  · rw [hd, hc, List.append_assoc]
  · intro p hp
    rcases List.mem_append.1 hp with hp | hp
    · exact hd' p hp
    · exact hc' p hp

theorem Step.mono {G G'} {s t : St} {w : Str} (h : Step G s t w) (hG : ∀ p ∈ G, p ∈ G') :
    Step G' s t w := by
  obtain ⟨c, hc, hc'⟩ := h.caps
  exact ⟨h.post, h.pre, c, hc, fun p hp => let ⟨r, hr, hl⟩ := hc' p hp; ⟨r, hG _ hr, hl⟩⟩

theorem Step.upTo {G} {s t : St} {w : Str} (h : Step G s t w) : s.upTo t = w := by
  rw [St.upTo, h.post]; simp

theorem repM_sound (r : Re)
    (ih : ∀ s t, t ∈ m r s → ∃ w, Step (groupsOf r) s t w ∧ Lang r w) (g : Bool) :
    ∀ (f mn : Nat) (mx : Option Nat) (s t : St), t ∈ repM (m r) g f mn mx s →
      ∃ w, Step (groupsOf r) s t w ∧ Lang (.rep g mn mx r) w := by
  intro f
  induction f with
  | zero =>
    intro mn mx s t h
    rw [repM] at h
    split at h
    · rename_i h0
      obtain rfl := List.mem_singleton.1 h
      exact ⟨[], Step.refl _ _, [], by simp, by omega, by simp, by simp⟩
    · simp at h
  | succ f ihf =>
    intro mn mx s t h
    rw [repM] at h
    have h' : (t ∈ (if mx = some 0 then [] else (m r s).flatMap fun t =>
        if t.post.length < s.post.length then
          repM (m r) g f (mn - 1) (mx.map (· - 1)) t else [])) ∨ (t ∈ if mn = 0 then [s] else []) := by
      split at h
      · exact List.mem_append.1 h
      · exact (List.mem_append.1 h).symm
    rcases h' with h | h
    · split at h
      · simp at h
      · rename_i hmx
        obtain ⟨u, hu, ht⟩ := List.mem_flatMap.1 h
        split at ht
        · obtain ⟨w1, s1, l1⟩ := ih s u hu
          obtain ⟨w2, s2, ws, e2, a2, b2, c2⟩ := ihf _ _ u t ht
          refine ⟨w1 ++ w2, s1.trans s2, w1 :: ws, by simp [e2], by simp; omega, ?_, ?_⟩
          · intro M hM
            have := b2 (M - 1) (by simp [hM])
            have : M ≠ 0 := by rintro rfl; exact hmx hM
            simp; omega
          · intro x hx
            rcases List.mem_cons.1 hx with rfl | hx
            · exact l1
            · exact c2 x hx
        · simp at ht
    · split at h
      · obtain rfl := List.mem_singleton.1 h
        exact ⟨[], Step.refl _ _, [], by simp, by omega, by simp, by simp⟩
      · simp at h

/-- Every success consumes a word of the language. -/
theorem m_sound : ∀ (r : Re) (s t : St), t ∈ m r s → ∃ w, Step (groupsOf r) s t w ∧ Lang r w := by
  intro r
  induction r with
  | eps =>
    intro s t h
    obtain rfl := List.mem_singleton.1 h
    exact ⟨[], Step.refl _ _, rfl⟩
  | set cs =>
    intro s t h
    obtain ⟨pre, post, caps⟩ := s
    rw [m] at h
    cases post with
    | nil => simp at h
    | cons c post =>
      simp only at h
      split at h
      · rename_i hc
        obtain rfl := List.mem_singleton.1 h
        exact ⟨[c], ⟨by simp, by simp, [], by simp, by simp⟩, c, hc, rfl⟩
      · simp at h
  | seq a b iha ihb =>
    intro s t h
    rw [m] at h
    obtain ⟨u, hu, ht⟩ := List.mem_flatMap.1 h
    obtain ⟨v, sv, lv⟩ := iha s u hu
    obtain ⟨w, sw, lw⟩ := ihb u t ht
    exact ⟨v ++ w, (sv.mono (by simp +contextual [groupsOf])).trans (sw.mono (by simp +contextual [groupsOf])),
      v, w, rfl, lv, lw⟩
  | alt a b iha ihb =>
    intro s t h
    rw [m] at h
    rcases List.mem_append.1 h with h | h
    · obtain ⟨v, sv, lv⟩ := iha s t h
      exact ⟨v, sv.mono (by simp +contextual [groupsOf]), Or.inl lv⟩
    · obtain ⟨v, sv, lv⟩ := ihb s t h
      exact ⟨v, sv.mono (by simp +contextual [groupsOf]), Or.inr lv⟩
  | rep g mn mx r ih =>
    intro s t h
    rw [m] at h
    exact repM_sound r ih g _ _ _ s t h
  | group n r ih =>
    intro s t h
    rw [m] at h
    obtain ⟨u, hu, rfl⟩ := List.mem_map.1 h
    obtain ⟨w, sw, lw⟩ := ih s u hu
    have sw' : Step (groupsOf (.group n r)) s u w := sw.mono (by simp +contextual [groupsOf])
    obtain ⟨c, hc, hc'⟩ := sw'.caps
    refine ⟨w, ⟨sw.post, sw.pre, (n, s.upTo u) :: c, by simp [hc], ?_⟩, lw⟩
    intro p hp
    rcases List.mem_cons.1 hp with rfl | hp
    · exact ⟨r, by simp [groupsOf], by simpa [sw.upTo] using lw⟩
    · exact hc' p hp
  | ahead neg r ih =>
    intro s t h
    rw [m] at h
    split at h
    · obtain rfl := List.mem_singleton.1 h
      exact ⟨[], Step.refl _ _, rfl⟩
    · simp at h
  | behind neg cs =>
    intro s t h
    rw [m] at h
    split at h <;> split at h
    all_goals first
      | (obtain rfl := List.mem_singleton.1 h; exact ⟨[], Step.refl _ _, rfl⟩)
      | simp at h
  | bol =>
    intro s t h
    rw [m] at h
    split at h
    · obtain rfl := List.mem_singleton.1 h
      exact ⟨[], Step.refl _ _, rfl⟩
    · simp at h
  | eol =>
    intro s t h
    rw [m] at h
    split at h
    · obtain rfl := List.mem_singleton.1 h
      exact ⟨[], Step.refl _ _, rfl⟩
    · simp at h
  | wordB neg =>
    intro s t h
    rw [m] at h
    split at h
    · obtain rfl := List.mem_singleton.1 h
      exact ⟨[], Step.refl _ _, rfl⟩
    · simp at h
  | backref ci n =>
    intro s t h
    rw [m] at h
    split at h
    · simp at h
    · rename_i u _
      split at h
      · obtain rfl := List.mem_singleton.1 h
        refine ⟨s.post.take u.length, ⟨?_, ?_, [], ?_, ?_⟩, trivial⟩ <;> simp [St.adv]
      · simp at h
  | cond n a b iha ihb =>
    intro s t h
    rw [m] at h
    split at h
    · obtain ⟨v, sv, lv⟩ := iha s t h
      exact ⟨v, sv.mono (by simp +contextual [groupsOf]), Or.inl lv⟩
    · obtain ⟨v, sv, lv⟩ := ihb s t h
      exact ⟨v, sv.mono (by simp +contextual [groupsOf]), Or.inr lv⟩

/-- A successful run comes from a word of the language. -/
theorem run_some {r : Re} {s : St} {k : St → Option β} {x : β} (h : run r s k = some x) :
    ∃ t w, Step (groupsOf r) s t w ∧ Lang r w ∧ k t = some x := by
  rw [run] at h
  obtain ⟨t, ht, hk⟩ := List.exists_of_findSome?_eq_some h
  obtain ⟨w, hs, hl⟩ := m_sound r s t ht
  exact ⟨t, w, hs, hl, hk⟩

/-- A run fails if no word of the language is a prefix of the text, or the continuation refuses. -/
theorem run_none {r : Re} {s : St} {k : St → Option β}
    (h : ∀ w t, Step (groupsOf r) s t w → Lang r w → k t = none) : run r s k = none := by
  cases hr : run r s k with
  | none => rfl
  | some x =>
    obtain ⟨t, w, hs, hl, hk⟩ := run_some hr
    rw [h w t hs hl] at hk
    cases hk

/-! ### Repetition of a character class -/

theorem run_star_cons (cs : CSet) (mx : Option Nat) (hmx : mx ≠ some 0) (pre post : Str) (c : Nat) (caps)
    (k : St → Option β) (hc : cs.has c = true) :
    run (.rep true 0 mx (.set cs)) ⟨pre, c :: post, caps⟩ k
      = (run (.rep true 0 (mx.map (· - 1)) (.set cs)) ⟨c :: pre, post, caps⟩ k).or
          (k ⟨pre, c :: post, caps⟩) := by
  rw [run_rep_greedy]
  simp [hmx, hc]

theorem run_plus_cons (g : Bool) (cs : CSet) (mn : Nat) (mx : Option Nat) (hmx : mx ≠ some 0)
    (pre post : Str) (c : Nat) (caps) (k : St → Option β) (hc : cs.has c = true) :
    run (.rep g (mn + 1) mx (.set cs)) ⟨pre, c :: post, caps⟩ k
      = run (.rep g mn (mx.map (· - 1)) (.set cs)) ⟨c :: pre, post, caps⟩ k := by
  cases g
  · rw [run_rep_lazy]; simp [hmx, hc]
  · rw [run_rep_greedy]; simp [hmx, hc]

/-- The class does not contain the next character (or there is none). -/
def Stops (cs : CSet) (post : Str) : Prop := ∀ c, post.head? = some c → cs.has c = false

theorem run_set_stops {cs : CSet} {pre post : Str} {caps} (k : St → Option β) (h : Stops cs post) :
    run (.set cs) ⟨pre, post, caps⟩ k = none := by
  cases post with
  | nil => simp
  | cons c post => simp [h c rfl]

theorem run_star_stop (g : Bool) (cs : CSet) (mx : Option Nat) (pre post : Str) (caps) (k : St → Option β)
    (h : Stops cs post) :
    run (.rep g 0 mx (.set cs)) ⟨pre, post, caps⟩ k = k ⟨pre, post, caps⟩ := by
  cases g
  · rw [run_rep_lazy, run_set_stops _ h]; simp
  · rw [run_rep_greedy, run_set_stops _ h]; simp

theorem run_plus_stop (g : Bool) (cs : CSet) (mn : Nat) (mx : Option Nat) (pre post : Str) (caps)
    (k : St → Option β) (h : Stops cs post) :
    run (.rep g (mn + 1) mx (.set cs)) ⟨pre, post, caps⟩ k = none := by
  cases g
  · rw [run_rep_lazy, run_set_stops _ h]; simp
  · rw [run_rep_greedy, run_set_stops _ h]; simp

/-- Greedy repetition of a class over a maximal run, when the continuation accepts the whole run. -/
theorem run_star_all (cs : CSet) : ∀ (w pre rest : Str) (mx : Option Nat) (caps) (k : St → Option β) (x : β),
    (∀ c ∈ w, cs.has c = true) → Stops cs rest → (∀ M, mx = some M → w.length ≤ M) →
    k ⟨w.reverse ++ pre, rest, caps⟩ = some x →
    run (.rep true 0 mx (.set cs)) ⟨pre, w ++ rest, caps⟩ k = some x := by
  intro w
  induction w with
  | nil =>
    intro pre rest mx caps k x _ hs _ hk
    rw [List.nil_append, run_star_stop _ _ _ _ _ _ _ hs]
    exact hk
  | cons c w ih =>
    intro pre rest mx caps k x hw hs hM hk
    have hmx : mx ≠ some 0 := by rintro rfl; have := hM 0 rfl; simp at this
    rw [List.cons_append, run_star_cons _ _ hmx _ _ _ _ _ (hw c (by simp))]
    rw [ih (c :: pre) rest (mx.map (· - 1)) caps k x (fun d hd => hw d (by simp [hd])) hs ?_ (by simpa using hk)]
    · simp
    · intro M hM'
      cases mx with
      | none => simp at hM'
      | some N => have := hM N rfl; simp at hM' this; omega

/-- The same for a bounded-below repetition. -/
theorem run_plus_all (cs : CSet) (mn : Nat) : ∀ (w pre rest : Str) (mx : Option Nat) (caps)
    (k : St → Option β) (x : β),
    mn ≤ w.length → (∀ c ∈ w, cs.has c = true) → Stops cs rest → (∀ M, mx = some M → w.length ≤ M) →
    k ⟨w.reverse ++ pre, rest, caps⟩ = some x →
    run (.rep true mn mx (.set cs)) ⟨pre, w ++ rest, caps⟩ k = some x := by
  induction mn with
  | zero => intro w pre rest mx caps k x _ hw hs hM hk; exact run_star_all cs w pre rest mx caps k x hw hs hM hk
  | succ mn ih =>
    intro w pre rest mx caps k x hl hw hs hM hk
    cases w with
    | nil => simp at hl
    | cons c w =>
      have hmx : mx ≠ some 0 := by rintro rfl; have := hM 0 rfl; simp at this
      rw [List.cons_append, run_plus_cons _ _ _ _ hmx _ _ _ _ _ (hw c (by simp))]
      refine ih w (c :: pre) rest _ caps k x (by simp at hl; omega) (fun d hd => hw d (by simp [hd])) hs ?_
        (by simpa using hk)
      intro M hM'
      cases mx with
      | none => simp at hM'
      | some N => have := hM N rfl; simp at hM' this; omega

/-- Lazy repetition of a class over a run that the continuation accepts only at its end. -/
theorem run_lazy_all (cs : CSet) (mn : Nat) : ∀ (w pre rest : Str) (caps) (k : St → Option β) (x : β),
    mn ≤ w.length → (∀ c ∈ w, cs.has c = true) →
    (∀ u v, w = u ++ v → v ≠ [] → mn ≤ u.length → k ⟨u.reverse ++ pre, v ++ rest, caps⟩ = none) →
    k ⟨w.reverse ++ pre, rest, caps⟩ = some x →
    run (.rep false mn none (.set cs)) ⟨pre, w ++ rest, caps⟩ k = some x := by
  intro w
  induction w generalizing mn with
  | nil =>
    intro pre rest caps k x hl _ _ hk
    have : mn = 0 := by simpa using hl
    subst this
    rw [run_rep_lazy]
    simp only [if_true, List.nil_append]
    rw [show k ⟨pre, rest, caps⟩ = some x from hk]; rfl
  | cons c w ih =>
    intro pre rest caps k x hl hw hf hk
    rw [run_rep_lazy]
    have h0 : (if mn = 0 then k ⟨pre, c :: w ++ rest, caps⟩ else none) = none := by
      split
      · rename_i h0
        exact hf [] (c :: w) rfl (by simp) (by simp [h0])
      · rfl
    rw [h0]
    simp only [List.cons_append, run_set_cons, hw c (by simp), if_true, List.length_cons, Nat.lt_succ_self,
      Option.none_or, reduceCtorEq, if_false, Option.map_none]
    refine ih (mn - 1) (c :: pre) rest caps k x (by simp at hl; omega) (fun d hd => hw d (by simp [hd])) ?_
      (by simpa using hk)
    intro u v huv hv hu
    have := hf (c :: u) v (by simp [huv]) hv (by simp; omega)
    simpa using this

/-- A greedy star followed by something that fails before all of `w` is consumed. -/
theorem run_star_last (cs : CSet) : ∀ (w pre rest : Str) (caps) (k : St → Option β),
    (∀ c ∈ w, cs.has c = true) → Stops cs rest →
    (∀ u v, w = u ++ v → v ≠ [] → k ⟨u.reverse ++ pre, v ++ rest, caps⟩ = none) →
    run (.rep true 0 none (.set cs)) ⟨pre, w ++ rest, caps⟩ k = k ⟨w.reverse ++ pre, rest, caps⟩ := by
  intro w
  induction w with
  | nil => intro pre rest caps k _ hs _; rw [List.nil_append, run_star_stop _ _ _ _ _ _ _ hs]; rfl
  | cons c w ih =>
    intro pre rest caps k hw hs hk
    rw [List.cons_append, run_star_cons _ _ (by simp) _ _ _ _ _ (hw c (by simp))]
    have h0 := hk [] (c :: w) rfl (by simp)
    simp only [List.reverse_nil, List.nil_append, List.cons_append] at h0
    rw [h0, Option.or_none, Option.map_none, ih (c :: pre) rest caps k (fun d hd => hw d (by simp [hd])) hs]
    · simp
    · intro u v e hv
      have := hk (c :: u) v (by rw [e]; rfl) hv
      simpa using this

/-- Whether `r+` matches depends on the first round only. -/
theorem isSome_plus (r : Re) (s : St) :
    (run (.rep true 1 none r) s some).isSome =
      (run r s fun t => if t.post.length < s.post.length then some t else none).isSome := by
  rw [run_rep_greedy]
  simp only [reduceCtorEq, if_false, Nat.one_ne_zero, Option.or_none, Option.map_none, Nat.sub_self]
  rw [run, run]
  induction m r s with
  | nil => rfl
  | cons t l ih =>
    rw [List.findSome?_cons, List.findSome?_cons]
    by_cases h : t.post.length < s.post.length
    · rw [if_pos h, if_pos h]
      have : (run (.rep true 0 none r) t some).isSome = true := by
        rw [run_rep_greedy]; simp
      cases hr : run (.rep true 0 none r) t some with
      | none => rw [hr] at this; cases this
      | some x => rfl
    · rw [if_neg h, if_neg h]; exact ih

/-- `[..]?` before a character of the class. -/
theorem run_opt_cons (cs : CSet) (pre post : Str) (c : Nat) (caps) (k : St → Option β)
    (hc : cs.has c = true) :
    run (.rep true 0 (some 1) (.set cs)) ⟨pre, c :: post, caps⟩ k
      = (k ⟨c :: pre, post, caps⟩).or (k ⟨pre, c :: post, caps⟩) := by
  rw [run_star_cons _ _ (by simp) _ _ _ _ _ hc, run_rep_greedy]
  simp

@[simp] theorem upTo_append (pre w rest : Str) (caps) (pre' : Str) (caps') :
    St.upTo ⟨pre, w ++ rest, caps⟩ ⟨pre', rest, caps'⟩ = w := by
  simp [St.upTo]

end Re

/-! ### Matching functions -/
namespace Pat

theorem matchAt_eq (p : Pat) (pre post : Str) :
    p.matchAt pre post = (Re.run p.re ⟨pre, post, []⟩ some).map fun t =>
      ⟨pre.reverse, (⟨pre, post, []⟩ : Re.St).upTo t, t.post, t.caps, p.names, p.ngroups⟩ := by
  rw [matchAt, Re.head?_eq_run]

/-- A match consumes a word of the language of the pattern. -/
theorem matchAt_some {p : Pat} {pre post : Str} {x : Match} (h : p.matchAt pre post = some x) :
    post = x.whole ++ x.after ∧ x.before = pre.reverse ∧ Re.Lang p.re x.whole ∧
      ∀ q ∈ x.caps, ∃ r, (q.1, r) ∈ Re.groupsOf p.re ∧ Re.Lang r q.2 := by
  rw [matchAt_eq] at h
  cases hr : Re.run p.re ⟨pre, post, []⟩ some with
  | none => rw [hr] at h; simp at h
  | some t =>
    rw [hr] at h
    obtain ⟨u, w, hs, hl, hk⟩ := Re.run_some hr
    obtain rfl := Option.some.inj hk
    simp only [Option.map_some, Option.some.injEq] at h
    subst h
    refine ⟨?_, rfl, ?_, ?_⟩
    · simp only [hs.upTo]; exact hs.post
    · simp only [hs.upTo]; exact hl
    · obtain ⟨new, h1, h2⟩ := hs.caps
      simp only [List.append_nil] at h1
      simp only [h1]
      exact h2

end Pat
end Verif
