import Verif.Lemmas.CastepSame
import Verif.Lemmas.LitRe
/- The table of the sections against the branches of the main loop. -/
namespace Verif.Castep
open Verif Verif.Spec

/-! ### The lines of a block -/

theorem lines_block (s e : Pat) (n : Nat) {line : Str} {rest rest' : List Str} {h : Hit}
    (hg : takeBlock s e n false line rest = .ok (some h, rest')) :
    found s line = true ∧ ∀ l ∈ h.block, l ∈ line :: rest := by
  simp only [takeBlock, blockOf] at hg
  generalize hb : Block.from_re line rest (found s) (found e) n false = r at hg
  obtain ⟨b | b, r⟩ := r
  · cases hg
  · obtain ⟨t, h1, h2, -⟩ := from_re_ok _ _ _ _ _ _ _ hb
    simp only [Except.ok.injEq, Prod.mk.injEq] at hg
    obtain ⟨hg, rfl⟩ := hg
    split at hg
    · rename_i ht
      simp only [Option.map_some, Option.some.injEq] at hg
      subst hg
      refine ⟨?_, ?_⟩
      · by_contra hf
        rw [Block.from_re] at hb
        simp only [hf, Bool.not_false, if_true, Prod.mk.injEq, Except.ok.injEq] at hb
        rw [← hb.1] at ht
        revert ht
        simp [Block.truthy, Block.init]
      · intro l hl
        rcases h2 with h2 | h2
        · simp [h2] at hl
        · simp only [h2, List.mem_cons] at hl
          rcases hl with rfl | hl
          · simp
          · rw [h1]; simp [hl]
    · simp at hg

theorem lines_final {line : Str} {rest rest' : List Str} {h : Hit}
    (hg : takeFinal line rest = .ok (some h, rest')) : ∀ l ∈ h.block, l ∈ line :: rest := by
  rw [takeFinal] at hg
  split at hg
  · rename_i h0 r0 hr
    obtain ⟨t, h1, h2, -⟩ := takeBlock_eof _ _ _ _ _ _ hr
    obtain ⟨-, h4⟩ := h2 h0 rfl
    have key : ∀ l ∈ h0.block, l ∈ line :: rest := by
      intro l hl
      rcases h4 with h4 | h4
      · simp [h4] at hl
      · simp only [h4, List.mem_cons] at hl
        rcases hl with rfl | hl
        · simp
        · rw [h1]; simp [hl]
    split at hg
    · split at hg
      · simp only [Except.ok.injEq, Prod.mk.injEq, Option.some.injEq] at hg
        rw [← hg.1]
        exact fun l hl => key l (List.mem_of_mem_dropLast hl)
      · simp only [Except.ok.injEq, Prod.mk.injEq, Option.some.injEq] at hg
        rw [← hg.1]
        exact key
    · cases hg
  · rename_i hne
    exact absurd hg (hne h rest')

/-! ### Names printed -/

theorem foldLines_keys {f : Dict Key PyVal → Str → PyM (Dict Key PyVal)} {Q : Key → Str → Prop}
    (hf : ∀ d l d', f d l = .ok d' → ∀ k ∈ d'.keys, k ∈ d.keys ∨ Q k l) : ∀ (ls : List Str) (d d' : Dict Key PyVal),
    foldLines f d ls = .ok d' → ∀ k ∈ d'.keys, k ∈ d.keys ∨ ∃ l ∈ ls, Q k l := by
  intro ls
  induction ls with
  | nil => intro d d' h; cases h; exact fun k hk => .inl hk
  | cons l ls ih =>
    intro d d' h k hk
    obtain ⟨d1, h1, h2⟩ := bind_ok h
    rcases ih _ _ h2 k hk with h3 | ⟨x, hx, h3⟩
    · rcases hf _ _ _ h1 k h3 with h4 | h4
      · exact .inl h4
      · exact .inr ⟨l, by simp, h4⟩
    · exact .inr ⟨x, by simp [hx], h3⟩

theorem splitC_one (c : Nat) : ∀ (s a : Str), Str.splitC c s = [a] → s = a := by
  intro s
  induction s with
  | nil => intro a h; cases h; rfl
  | cons x s ih =>
    intro a h
    rw [Str.splitC] at h
    split at h
    · cases hs : Str.splitC c s with
      | nil =>
        exfalso
        cases s with
        | nil => cases hs
        | cons y s => rw [Str.splitC] at hs; split at hs <;> [cases hs; (split at hs <;> cases hs)]
      | cons y l => rw [hs] at h; cases h
    · split at h
      · rename_i hs
        exfalso
        cases s with
        | nil => cases hs
        | cons y s => rw [Str.splitC] at hs; split at hs <;> [cases hs; (split at hs <;> cases hs)]
      · rename_i y l hs
        cases h
        rw [ih _ hs]

theorem splitC_two (c : Nat) : ∀ (s a b : Str), Str.splitC c s = [a, b] → s = a ++ [c] ++ b := by
  intro s
  induction s with
  | nil => intro a b h; cases h
  | cons x s ih =>
    intro a b h
    rw [Str.splitC] at h
    split at h
    · rename_i hx
      simp only [List.cons.injEq] at h
      rw [hx, ← h.1, splitC_one c s b h.2]
      simp
    · split at h
      · cases h
      · rename_i y l hs
        cases h
        rw [ih _ _ hs]
        simp

theorem names_final {block : List Str} {d : Dict Key PyVal} (h : process_finalisation block = .ok d) :
    ∀ k ∈ d.keys, ∃ l ∈ block, Names .assigned k l := by
  intro k hk
  have key : ∀ d l d', finalLine d l = .ok d' → ∀ k ∈ d'.keys, k ∈ d.keys ∨ Names .assigned k l := by
    intro d l d' hl k hk
    rw [finalLine] at hl
    split at hl
    · cases hl; exact .inl hk
    · obtain ⟨⟨key, val⟩, h1, hl⟩ := bind_ok hl
      obtain ⟨v, h2, hl⟩ := bind_ok hl
      cases hl
      rcases (Dict.mem_keys_set _ _ _ _).1 hk with rfl | hk
      · refine .inr ⟨key, val, splitC_two _ _ _ _ ?_, rfl⟩
        match hs : Str.splitC (c!"=") l, h1 with
        | [a, b], h1 => cases h1; rfl
      · exact .inl hk
  rcases foldLines_keys key _ _ _ h k hk with h | h
  · simp [Dict.keys] at h
  · exact h

theorem collect_mem {α : Type} {f : Str → PyM (Option α)} : ∀ (ls : List Str) (xs : List α), collect f ls = .ok xs →
    ∀ x ∈ xs, ∃ l ∈ ls, f l = .ok (some x) := by
  intro ls
  induction ls with
  | nil => intro xs h; cases h; simp
  | cons l ls ih =>
    intro xs h x hx
    obtain ⟨o, h1, h⟩ := bind_ok h
    cases o with
    | none =>
      obtain ⟨y, hy, h2⟩ := ih _ h x hx
      exact ⟨y, by simp [hy], h2⟩
    | some z =>
      obtain ⟨ys, h2, h⟩ := bind_ok h
      cases h
      rcases List.mem_cons.1 hx with rfl | hx
      · exact ⟨l, by simp, h1⟩
      · obtain ⟨y, hy, h3⟩ := ih _ h2 x hx
        exact ⟨y, by simp [hy], h3⟩

theorem keys_ofList (l : List (Key × PyVal)) : ∀ k ∈ (Dict.ofList l).keys, ∃ v, (k, v) ∈ l := by
  have key : ∀ (l : List (Key × PyVal)) (d : Dict Key PyVal), ∀ k ∈ (l.foldl (fun d kv => d.set kv.1 kv.2) d).keys,
      k ∈ d.keys ∨ ∃ v, (k, v) ∈ l := by
    intro l
    induction l with
    | nil => intro d k hk; exact .inl hk
    | cons kv l ih =>
      intro d k hk
      rcases ih _ k hk with h | ⟨v, h⟩
      · rcases (Dict.mem_keys_set _ _ _ _).1 h with rfl | h
        · exact .inr ⟨kv.2, by simp⟩
        · exact .inl h
      · exact .inr ⟨v, by simp [h]⟩
  intro k hk
  rcases key l [] k hk with h | h
  · simp [Dict.keys] at h
  · exact h

theorem mdData_parts : ∃ c B, Re.parts MD_DATA_RE.re =
    [.set (Re.oneSet 120), .rep true 1 none (.set ⟨false, [.space], false⟩)] ++ .group 1 c :: .set (Re.oneSet 58) :: B ∧
    ∀ q ∈ (Re.set (Re.oneSet 58) :: B).flatMap Re.groupsOf, q.1 ≠ 1 := by
  refine ⟨_, _, rfl, ?_⟩
  decide +kernel

theorem mdData_names : MD_DATA_RE.names.find? (fun x => decide (x.1 = py"key")) = some (py"key", 1) := by
  decide +kernel

theorem names_md {block : List Str} {d : Dict Key PyVal} (h : process_md_block block = .ok d) :
    ∀ k ∈ d.keys, ∃ l ∈ block, Names .labelled k l := by
  obtain ⟨d0, h1, h⟩ := bind_ok h
  cases h
  obtain ⟨xs, h0, h⟩ := bind_ok h1
  cases h
  intro k hk
  obtain ⟨v, hv⟩ := keys_ofList _ k hk
  obtain ⟨⟨k0, v0⟩, h2, h3⟩ := List.mem_map.1 hv
  have hk0 : k0 ∈ (Dict.ofList xs).keys := List.mem_map.2 ⟨_, h2, rfl⟩
  obtain ⟨v1, h4⟩ := keys_ofList _ _ hk0
  obtain ⟨l, hl, h5⟩ := collect_mem _ _ h0 _ h4
  refine ⟨l, hl, ?_⟩
  unfold onSearch at h5
  split at h5
  · cases h5
  rename_i m hm
  obtain ⟨y, h6, h7⟩ := bind_ok h5
  obtain ⟨w, -, h6⟩ := bind_ok h6
  cases h6
  cases h7
  obtain ⟨rfl, -⟩ := Prod.mk.inj h3
  rcases Pat.search_spec MD_DATA_RE l with ⟨h8, -⟩ | ⟨u, t, x, h8, h9, h10, -⟩
  · rw [h8] at hm; cases hm
  rw [h9] at hm
  obtain rfl := Option.some.inj hm
  obtain ⟨c, B, hp, hn⟩ := mdData_parts
  rw [Pat.matchAt] at h10
  cases hh : (MD_DATA_RE.re.m ⟨u.reverse, t, []⟩).head? with
  | none => rw [hh] at h10; cases h10
  | some st =>
    rw [hh] at h10
    obtain rfl := Option.some.inj h10
    obtain ⟨p, w', vs, e1, e2, -, e3⟩ := Re.cap_of_parts hp hn (List.mem_of_head? hh)
    cases e3 with
    | cons e4 e5 =>
      obtain ⟨x, hx, rfl⟩ := e4
      rw [(Re.has_oneSet _ _).1 hx] at e1
      refine ⟨u ++ p, w', ?_, ?_, ?_⟩
      rotate_left
      · rw [h8]
        simp only at e1
        rw [e1]
        simp
        rfl
      · have : Match.named ⟨u.reverse.reverse, (⟨u.reverse, t, []⟩ : Re.St).upTo st, st.post, st.caps,
          MD_DATA_RE.names, MD_DATA_RE.ngroups⟩ (py"key") = some w' := by
          simp only [Match.named, mdData_names]
          exact e2
        simp only
        rw [this]
        rfl

theorem w_finalisation {P : Key → Prop} (env : Env) (h : Hit) (hk : ∀ k l, l ∈ h.block → Names .assigned k l → P k) :
    Writes P (finalisation env h) :=
  writes_bind fun d hd => writes_update d fun k hk' => by
    obtain ⟨l, hl, hn⟩ := names_final hd k hk'
    exact hk k l hl hn

theorem w_mdData {P : Key → Prop} (env : Env) (h : Hit) (hk : ∀ k l, l ∈ h.block → Names .labelled k l → P k) :
    Writes P (mdData env h) :=
  writes_bind fun d hd => writes_update d fun k hk' => by
    obtain ⟨l, hl, hn⟩ := names_md hd k hk'
    exact hk k l hl hn

theorem w_cutoff {P : Key → Prop} (hk : ∀ k, P k) (env : Env) (block : List Str) : Writes P (cutoffRun env block) := by
  refine writes_bind fun runs _ => writes_bind fun data _ => writes_bind fun x _ => writes_bind fun y _ => ?_
  refine (writes_set _ (hk _) y.1).then (q := fun r => splitLast x.1 >>= fun w => .ok (updateDict
    ((r.set (.str (py"scf")) w.1).set (.str (py"bsc_scf")) w.2) y.2)) ?_
  refine writes_bind fun w _ => ?_
  exact (writes_set _ (hk _) w.1).then ((writes_set _ (hk _) w.2).then (writes_update y.2 fun k _ => hk k))

/-! ### The table -/

/-- The environments differ in the filters. -/
structure Sim (a b : Env) : Prop where
  recur : a.recur = b.recur
  order : a.order = b.order
  ops : a.ops = b.ops

/-- The entries that the section may write. -/
def Entry.writes (e : Entry) (h : Hit) (k : Key) : Prop :=
  (∃ n ∈ e.keys, k = .str n) ∨ ∃ l ∈ h.block, Names e.printed k l

/-- The actions of the table. -/
inductive ActOf (e : Entry) : (Env → Hit → List Str → State → PyM (State × List Str)) → Prop
  | run (f) (hr : e.reads = false) (hm : e.moves = false)
      (hs : (∀ a b, Sim a b → ∀ h, f a h = f b h) ∨ (f = pseudopot ∧ Filters.PSPOT ∈ e.filters))
      (hw : ∀ env h, Writes (Entry.writes e h) (f env h)) : ActOf e (onRun f)
  | geom (hr : e.reads = false) (hm : e.moves = true) (hk : e.keys = geomKeys) : ActOf e (onRun geomIteration)
  | mixture (hr : e.reads = false) (hm : e.moves = false) (hk : py"initial_positions" ∈ e.keys) : ActOf e mixture
  | warning (hr : e.reads = true) (hm : e.moves = false) (hk : py"warning" ∈ e.keys) : ActOf e warning
  | title (hr : e.reads = true) (hm : e.moves = false) (hk : py"title" ∈ e.keys) : ActOf e title
  | field (hr : e.reads = true) (hm : e.moves = false) (hk : py"applied_field" ∈ e.keys) : ActOf e appliedField
  | cutoff (hr : e.reads = true) (hm : e.moves = false) (hk : e.printed = .any) : ActOf e cutoff

/-- The branch is the one of the table. -/
structure Fits (e : Entry) (sec : Section) : Prop where
  name : sec.name = e.name
  wants : ∀ F G, Agree F G e → sec.wants F = sec.wants G
  mono : ∀ F G : Filters, (∀ x, Filters.has x F = true → Filters.has x G = true) → sec.wants F = true → sec.wants G = true
  asked : ∀ F, sec.wants F = true → Asked F e
  act : ActOf e sec.act
  opens : ∀ line rest h r, sec.grab line rest = .ok (some h, r) → Opens e line
  lines : e.printed ≠ .no → ∀ line rest h r, sec.grab line rest = .ok (some h, r) → ∀ l ∈ h.block, l ∈ line :: rest

end Verif.Castep
