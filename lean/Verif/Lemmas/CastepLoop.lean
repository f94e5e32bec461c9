import Verif.Lemmas.BlankRe
import Verif.Lemmas.Blocks
import Verif.Lemmas.MdFile
import Verif.Model.Castep
/- The main loop of `parse_castep_file`: what a step takes, text appended to the file, the depth of the recursion. -/
namespace Verif.Castep
open Verif

/-- The line of a line feed alone. -/
def NL : Str := py"\n"

/-! ### Blocks of a list of lines -/

theorem fromReLoop_true (endP : Str → Bool) (n : Int) (fuel : Nat) (k : Int) (data l data' rest : List Str)
    (h : Block.fromReLoop endP n fuel k data l = (true, data', rest)) :
    ∃ taken, l = taken ++ rest ∧ data' = data ++ taken ∧
      ∀ fuel' b, taken.length ≤ fuel' → Block.fromReLoop endP n fuel' k data (l ++ b) = (true, data', rest ++ b) := by
  induction fuel generalizing k data l with
  | zero => simp [Block.fromReLoop] at h
  | succ fuel ih =>
    cases l with
    | nil => simp [Block.fromReLoop, LineSource.next] at h
    | cons x l =>
      simp only [Block.fromReLoop, LineSource.next] at h
      by_cases he : endP x = true
      · simp only [he, if_true] at h
        by_cases hk : k + 1 = n
        · simp only [hk, if_true, Prod.mk.injEq, true_and] at h
          refine ⟨[x], by simp [h.2], h.1.symm, fun fuel' b hf => ?_⟩
          obtain ⟨f, rfl⟩ : ∃ f, fuel' = f + 1 := ⟨fuel' - 1, by simp at hf; omega⟩
          simp [Block.fromReLoop, LineSource.next, he, hk, h.1, h.2]
        · simp only [hk, if_false] at h
          obtain ⟨t, h1, h2, h3⟩ := ih _ _ _ h
          refine ⟨x :: t, by simp [h1], by simp [h2], fun fuel' b hf => ?_⟩
          obtain ⟨f, rfl⟩ : ∃ f, fuel' = f + 1 := ⟨fuel' - 1, by simp at hf; omega⟩
          simp only [List.cons_append, Block.fromReLoop, LineSource.next, he, if_true, hk, if_false]
          exact h3 f b (by simp at hf; omega)
      · simp only [he, Bool.false_eq_true, if_false] at h
        obtain ⟨t, h1, h2, h3⟩ := ih _ _ _ h
        refine ⟨x :: t, by simp [h1], by simp [h2], fun fuel' b hf => ?_⟩
        obtain ⟨f, rfl⟩ : ∃ f, fuel' = f + 1 := ⟨fuel' - 1, by simp at hf; omega⟩
        simp only [List.cons_append, Block.fromReLoop, LineSource.next, he, Bool.false_eq_true, if_false]
        exact h3 f b (by simp at hf; omega)

theorem fromReLoop_false (endP : Str → Bool) (n : Int) (fuel : Nat) (k : Int) (data l data' rest : List Str)
    (hf : l.length < fuel) (h : Block.fromReLoop endP n fuel k data l = (false, data', rest)) :
    rest = [] ∧ data' = data ++ l ∧ (k + 1 = n → ∀ x ∈ l, endP x = false) := by
  induction fuel generalizing k data l with
  | zero => omega
  | succ fuel ih =>
    cases l with
    | nil =>
      simp only [Block.fromReLoop, LineSource.next, Prod.mk.injEq, true_and] at h
      exact ⟨h.2.symm, by simp [h.1], by simp⟩
    | cons x l =>
      simp only [Block.fromReLoop, LineSource.next] at h
      simp only [List.length_cons] at hf
      by_cases he : endP x = true
      · simp only [he, if_true] at h
        by_cases hk : k + 1 = n
        · simp [hk] at h
        · simp only [hk, if_false] at h
          obtain ⟨h1, h2, h3⟩ := ih _ _ _ (by omega) h
          exact ⟨h1, by simp [h2], fun hk' => absurd hk' hk⟩
      · simp only [he, Bool.false_eq_true, if_false] at h
        obtain ⟨h1, h2, h3⟩ := ih _ _ _ (by omega) h
        refine ⟨h1, by simp [h2], fun hk => ?_⟩
        intro y hy
        rcases List.mem_cons.1 hy with rfl | hy
        · simpa using he
        · exact h3 hk y hy

/-- A block that ends: the lines it takes, and the same with more text after. -/
theorem from_re_ok (startP endP : Str → Bool) (n : Int) (line : Str) (rest rest' : List Str) (b : Block)
    (h : Block.from_re line rest startP endP n false = (.ok b, rest')) :
    ∃ taken, rest = taken ++ rest' ∧ (b.data = [] ∨ b.data = line :: taken) ∧
      ∀ more, Block.from_re line (rest ++ more) startP endP n false = (.ok b, rest' ++ more) := by
  rw [Block.from_re] at h
  cases hs : startP line with
  | false =>
    simp only [hs, Bool.not_false, if_true, Prod.mk.injEq, Except.ok.injEq] at h
    refine ⟨[], by simp [h.2], .inl (by rw [← h.1]; rfl), fun more => ?_⟩
    rw [Block.from_re, hs]; simp [← h.1, ← h.2, Block.init, LineSource.lineno]
  | true =>
    simp only [hs, Bool.not_true, Bool.false_eq_true, if_false, Bool.not_false, if_true] at h
    generalize hl : Block.fromReLoop endP n (LineSource.bound rest + 1) 0 [line] rest = r at h
    obtain ⟨ok, data, s⟩ := r
    cases ok with
    | false => simp at h
    | true =>
      simp only [Prod.mk.injEq, Except.ok.injEq] at h
      obtain ⟨t, h1, h2, h3⟩ := fromReLoop_true _ _ _ _ _ _ _ _ hl
      refine ⟨t, by rw [h1, h.2], .inr (by rw [← h.1]; simp [h2]), fun more => ?_⟩
      rw [Block.from_re, hs]
      simp only [Bool.not_true, Bool.false_eq_true, if_false]
      rw [h3 _ more (by simp [LineSource.bound, h1]; omega)]
      simp [← h.1, ← h.2, Block.init, LineSource.lineno]

/-- What a condition takes from the lines after the line. -/
def Takes (g : Str → List Str → PyM (Option Hit × List Str)) : Prop :=
  ∀ line rest h rest', g line rest = .ok (h, rest') → ∃ taken, rest = taken ++ rest' ∧
    ∀ h' ∈ h, h'.line = line ∧ h'.block.length ≤ taken.length + 1

/-- The same with more text after, if the text ends with an empty line. -/
def Extends (g : Str → List Str → PyM (Option Hit × List Str)) : Prop :=
  ∀ line rest h rest', (line :: rest).getLast? = some NL → g line rest = .ok (h, rest') →
    ∀ more, g line (rest ++ more) = .ok (h, rest' ++ more)

theorem takes_block (s e : Pat) (n : Nat) : Takes (takeBlock s e n false) := by
  intro line rest h rest' hg
  simp only [takeBlock, blockOf] at hg
  generalize hb : Block.from_re line rest (found s) (found e) n false = r at hg
  obtain ⟨b | b, r⟩ := r
  · cases hg
  · obtain ⟨t, h1, h2, -⟩ := from_re_ok _ _ _ _ _ _ _ hb
    simp only [Except.ok.injEq, Prod.mk.injEq] at hg
    refine ⟨t, by rw [h1, hg.2], ?_⟩
    rw [← hg.1]
    intro h' hh
    split at hh
    · simp only [Option.map_some, Option.mem_def, Option.some.injEq] at hh
      rw [← hh]
      refine ⟨rfl, ?_⟩
      rcases h2 with h2 | h2 <;> simp [h2]
    · simp at hh

theorem extends_block (s e : Pat) (n : Nat) : Extends (takeBlock s e n false) := by
  intro line rest h rest' _ hg more
  simp only [takeBlock, blockOf] at hg ⊢
  generalize hb : Block.from_re line rest (found s) (found e) n false = r at hg
  obtain ⟨b | b, r⟩ := r
  · cases hg
  · obtain ⟨t, h1, h2, h3⟩ := from_re_ok _ _ _ _ _ _ _ hb
    simp only [Except.ok.injEq, Prod.mk.injEq] at hg
    rw [h3 more]
    simp only [hg.1, hg.2]

theorem takes_line (p : Str → Bool) : Takes (takeLine p) := by
  intro line rest h rest' hg
  simp only [takeLine, Except.ok.injEq, Prod.mk.injEq] at hg
  refine ⟨[], by simp [hg.2], ?_⟩
  intro h' hh
  rw [← hg.1] at hh
  split at hh
  · simp only [Option.mem_def, Option.some.injEq] at hh; rw [← hh]; simp
  · simp at hh

theorem extends_line (p : Str → Bool) : Extends (takeLine p) := by
  intro line rest h rest' _ hg more
  simp only [takeLine, Except.ok.injEq, Prod.mk.injEq] at hg ⊢
  exact ⟨hg.1, by rw [hg.2]⟩

theorem takes_match (p : Pat) : Takes (takeMatch p) := by
  intro line rest h rest' hg
  simp only [takeMatch, Except.ok.injEq, Prod.mk.injEq] at hg
  refine ⟨[], by simp [hg.2], ?_⟩
  intro h' hh
  rw [← hg.1] at hh
  simp only [Option.mem_def, Option.map_eq_some_iff] at hh
  obtain ⟨m, -, rfl⟩ := hh
  simp

theorem extends_match (p : Pat) : Extends (takeMatch p) := by
  intro line rest h rest' _ hg more
  simp only [takeMatch, Except.ok.injEq, Prod.mk.injEq] at hg ⊢
  exact ⟨hg.1, by rw [hg.2]⟩

theorem takes_search (p : Pat) : Takes (takeSearch p) := by
  intro line rest h rest' hg
  simp only [takeSearch, Except.ok.injEq, Prod.mk.injEq] at hg
  refine ⟨[], by simp [hg.2], ?_⟩
  intro h' hh
  rw [← hg.1] at hh
  simp only [Option.mem_def, Option.map_eq_some_iff] at hh
  obtain ⟨m, -, rfl⟩ := hh
  simp

theorem extends_search (p : Pat) : Extends (takeSearch p) := by
  intro line rest h rest' _ hg more
  simp only [takeSearch, Except.ok.injEq, Prod.mk.injEq] at hg ⊢
  exact ⟨hg.1, by rw [hg.2]⟩

theorem takes_md : Takes takeMd := by
  intro line rest h rest' hg
  rw [takeMd] at hg
  split at hg
  · rename_i r hr
    obtain ⟨t, h1, -⟩ := takes_block _ _ _ _ _ _ _ hr
    obtain ⟨t', h2, h3⟩ := takes_block _ _ _ _ _ _ _ hg
    refine ⟨t ++ t', by rw [h1, h2]; simp, fun h' hh => ⟨(h3 h' hh).1, ?_⟩⟩
    have := (h3 h' hh).2
    simp; omega
  · exact takes_block _ _ _ _ _ _ _ hg

theorem extends_md : Extends takeMd := by
  intro line rest h rest' hc hg more
  rw [takeMd] at hg ⊢
  split at hg
  · rename_i r hr
    rw [extends_block _ _ _ _ _ _ _ hc hr more]
    dsimp only
    obtain ⟨t, h1, -⟩ := takes_block _ _ _ _ _ _ _ hr
    simp only [takeBlock, blockOf] at hg ⊢
    generalize hb : Block.from_re line r (found MD_START_RE) (found DOUBLE_RE) (1 : Nat) false = q at hg
    obtain ⟨b | b, q⟩ := q
    · cases hg
    · obtain ⟨t, h1, h2, h3⟩ := from_re_ok _ _ _ _ _ _ _ hb
      simp only [Except.ok.injEq, Prod.mk.injEq] at hg
      rw [h3 more]
      simp only [hg.1, hg.2]
  · rename_i hne
    rw [extends_block _ _ _ _ _ _ _ hc hg more]
    cases h with
    | none => exact absurd hg (hne rest')
    | some h => rfl

/-! ### The finalisation -/

theorem NL_ends_final : found FINAL_END_RE NL = true := by decide +kernel
theorem NL_not_init : found INIT_TIME_RE NL = false := by decide +kernel
theorem NL_not_warning : (WARNING_RE.match_ NL).isSome = false := by decide +kernel

theorem from_re_eof (startP endP : Str → Bool) (line : Str) (rest rest' : List Str) (b : Block)
    (h : Block.from_re line rest startP endP 1 true = (.ok b, rest')) :
    ∃ taken, rest = taken ++ rest' ∧ (b.data = [] ∨ b.data = line :: taken) ∧
      ((startP line = true → ∃ x ∈ rest, endP x = true) →
        ∀ more, Block.from_re line (rest ++ more) startP endP 1 true = (.ok b, rest' ++ more)) := by
  rw [Block.from_re] at h
  cases hs : startP line with
  | false =>
    simp only [hs, Bool.not_false, if_true, Prod.mk.injEq, Except.ok.injEq] at h
    refine ⟨[], by simp [h.2], .inl (by rw [← h.1]; rfl), fun _ more => ?_⟩
    rw [Block.from_re, hs]; simp [← h.1, ← h.2, Block.init, LineSource.lineno]
  | true =>
    simp only [hs, Bool.not_true, Bool.false_eq_true, if_false] at h
    generalize hl : Block.fromReLoop endP 1 (LineSource.bound rest + 1) 0 [line] rest = r at h
    obtain ⟨ok, data, s⟩ := r
    cases ok with
    | false =>
      simp only [Prod.mk.injEq, Except.ok.injEq] at h
      obtain ⟨h1, h2, h3⟩ := fromReLoop_false _ _ _ _ _ _ _ _ (by simp [LineSource.bound]) hl
      refine ⟨rest, by simp [← h.2, h1], .inr (by rw [← h.1]; simp [h2]), fun hx => ?_⟩
      obtain ⟨x, hx, he⟩ := hx rfl
      exact absurd he (by simp [h3 (by simp) x hx])
    | true =>
      simp only [Prod.mk.injEq, Except.ok.injEq] at h
      obtain ⟨t, h1, h2, h3⟩ := fromReLoop_true _ _ _ _ _ _ _ _ hl
      refine ⟨t, by rw [h1, h.2], .inr (by rw [← h.1]; simp [h2]), fun _ more => ?_⟩
      rw [Block.from_re, hs]
      simp only [Bool.not_true, Bool.false_eq_true, if_false]
      rw [h3 _ more (by simp [LineSource.bound, h1]; omega)]
      simp [← h.1, ← h.2, Block.init, LineSource.lineno]

theorem takeBlock_eof (s e : Pat) (line : Str) (rest rest' : List Str) (h : Option Hit)
    (hg : takeBlock s e 1 true line rest = .ok (h, rest')) :
    ∃ taken, rest = taken ++ rest' ∧ (∀ h' ∈ h, h'.line = line ∧ (h'.block = [] ∨ h'.block = line :: taken)) ∧
      ((found s line = true → ∃ x ∈ rest, found e x = true) →
        ∀ more, takeBlock s e 1 true line (rest ++ more) = .ok (h, rest' ++ more)) := by
  simp only [takeBlock, blockOf] at hg ⊢
  generalize hb : Block.from_re line rest (found s) (found e) ((1 : Nat) : Int) true = r at hg
  obtain ⟨b | b, r⟩ := r
  · cases hg
  · obtain ⟨t, h1, h2, h3⟩ := from_re_eof _ _ _ _ _ _ hb
    simp only [Except.ok.injEq, Prod.mk.injEq] at hg
    refine ⟨t, by rw [h1, hg.2], ?_, ?_⟩
    · rw [← hg.1]
      intro h' hh
      split at hh
      · simp only [Option.map_some, Option.mem_def, Option.some.injEq] at hh
        rw [← hh]; exact ⟨rfl, h2⟩
      · simp at hh
    · intro hx more
      have h4 := h3 hx more
      rw [show ((1 : Nat) : Int) = 1 from rfl, h4]
      simp only [hg.1, hg.2]

theorem dropLast_last {l : List α} {x : α} (h : l.getLast? = some x) : l.dropLast ++ [x] = l := by
  have hne : l ≠ [] := by rintro rfl; simp at h
  rw [List.getLast?_eq_some_getLast hne] at h
  rw [← Option.some.inj h]
  exact List.dropLast_concat_getLast hne

theorem takes_final : Takes takeFinal := by
  intro line rest h rest' hg
  rw [takeFinal] at hg
  split at hg
  · rename_i h0 r0 hr
    obtain ⟨t, h1, h2, -⟩ := takeBlock_eof _ _ _ _ _ _ hr
    obtain ⟨h3, h4⟩ := h2 h0 rfl
    split at hg
    · rename_i l hl
      split at hg
      · rename_i hlt
        simp only [Except.ok.injEq, Prod.mk.injEq] at hg
        rw [← hg.1, ← hg.2]
        split
        · rename_i hlen
          rcases h4 with h4 | h4
          · simp [h4] at hl
          · have ht : t ≠ [] := by rintro rfl; simp [h4] at hlen
            have hl' : t.getLast? = some l := by
              rw [h4, List.getLast?_cons] at hl
              cases h : t.getLast? with
              | none => rw [List.getLast?_eq_none_iff] at h; exact absurd h ht
              | some x => rw [h] at hl; simpa using hl
            refine ⟨t.dropLast, ?_, ?_⟩
            · have e : t ++ r0 = (t.dropLast ++ [l]) ++ r0 := by
                rw [dropLast_last hl']
              rw [h1, e]; simp
            · intro h' hh
              simp only [Option.mem_def, Option.some.injEq] at hh
              rw [← hh]
              refine ⟨h3, ?_⟩
              simp [h4]; omega
        · refine ⟨t, h1, ?_⟩
          intro h' hh
          simp only [Option.mem_def, Option.some.injEq] at hh
          rw [← hh]
          refine ⟨h3, ?_⟩
          rcases h4 with h4 | h4 <;> simp [h4]
      · simp only [Except.ok.injEq, Prod.mk.injEq] at hg
        rw [← hg.1, ← hg.2]
        refine ⟨t, h1, ?_⟩
        intro h' hh
        simp only [Option.mem_def, Option.some.injEq] at hh
        rw [← hh]
        refine ⟨h3, ?_⟩
        rcases h4 with h4 | h4 <;> simp [h4]
    · cases hg
  · rename_i hne
    obtain ⟨t, h1, h2, -⟩ := takeBlock_eof _ _ _ _ _ _ hg
    cases h with
    | none => exact ⟨t, h1, by simp⟩
    | some h => exact absurd hg (hne h rest')

theorem last_mem {l : List α} {x y : α} (h : (x :: l).getLast? = some y) (hne : x ≠ y) : y ∈ l := by
  rw [List.getLast?_cons] at h
  cases hl : l.getLast? with
  | none => rw [hl] at h; simp at h; exact absurd h hne
  | some z =>
    rw [hl] at h
    simp at h
    subst h
    exact List.mem_of_getLast? hl

theorem extends_final : Extends takeFinal := by
  intro line rest h rest' hc hg more
  have hx : found INIT_TIME_RE line = true → ∃ x ∈ rest, found FINAL_END_RE x = true := by
    intro hi
    refine ⟨NL, last_mem hc ?_, NL_ends_final⟩
    rintro rfl
    rw [NL_not_init] at hi
    cases hi
  rw [takeFinal] at hg ⊢
  split at hg
  · rename_i h0 r0 hr
    obtain ⟨t, h1, h2, h3⟩ := takeBlock_eof _ _ _ _ _ _ hr
    rw [h3 hx more]
    dsimp only
    split at hg
    · split at hg
      · simp only [Except.ok.injEq, Prod.mk.injEq] at hg
        simp only [*, if_true]
        rw [← hg.2]
        split <;> rfl
      · simp only [Except.ok.injEq, Prod.mk.injEq] at hg
        simp only [*, if_false]
    · cases hg
  · rename_i hne
    obtain ⟨t, h1, h2, h3⟩ := takeBlock_eof _ _ _ _ _ _ hg
    rw [h3 hx more]
    cases h with
    | none => rfl
    | some h => exact absurd hg (hne h rest')

/-! ### What is not taken -/

/-- The lines are left when the condition is false. -/
def Keeps (g : Str → List Str → PyM (Option Hit × List Str)) : Prop :=
  ∀ line rest rest', g line rest = .ok (none, rest') → rest' = rest

theorem fromReLoop_data (endP : Str → Bool) (n : Int) (fuel : Nat) (k : Int) (data l : List Str) (x : Str)
    (hx : x ∈ data) : x ∈ (Block.fromReLoop endP n fuel k data l).2.1 := by
  induction fuel generalizing k data l with
  | zero => exact hx
  | succ fuel ih =>
    cases l with
    | nil => exact hx
    | cons y l =>
      simp only [Block.fromReLoop, LineSource.next]
      split
      · split
        · simp [hx]
        · exact ih _ _ _ (by simp [hx])
      · exact ih _ _ _ (by simp [hx])

theorem from_re_rest (startP endP : Str → Bool) (n : Int) (eof : Bool) (line : Str) (rest rest' : List Str) (b : Block)
    (h : Block.from_re line rest startP endP n eof = (.ok b, rest')) :
    (startP line = false ∧ rest' = rest) ∨ (startP line = true ∧ line ∈ b.data) := by
  rw [Block.from_re] at h
  cases hs : startP line with
  | false =>
    simp only [hs, Bool.not_false, if_true, Prod.mk.injEq, Except.ok.injEq] at h
    exact .inl ⟨rfl, h.2.symm⟩
  | true =>
    refine .inr ⟨rfl, ?_⟩
    simp only [hs, Bool.not_true, Bool.false_eq_true, if_false] at h
    have hd := fromReLoop_data endP n (LineSource.bound rest + 1) 0 [line] rest line (by simp)
    generalize Block.fromReLoop endP n (LineSource.bound rest + 1) 0 [line] rest = r at h hd
    obtain ⟨ok, data, s⟩ := r
    cases ok with
    | false =>
      cases eof with
      | false => simp at h
      | true =>
        simp only [Bool.not_true, Bool.false_eq_true, if_false, Prod.mk.injEq, Except.ok.injEq] at h
        rw [← h.1]; exact hd
    | true =>
      simp only [Prod.mk.injEq, Except.ok.injEq] at h
      rw [← h.1]; exact hd

theorem keeps_block (s e : Pat) (n : Nat) (eof : Bool) (hs : s.re.spaceable = false) : Keeps (takeBlock s e n eof) := by
  intro line rest rest' hg
  simp only [takeBlock, blockOf] at hg
  generalize hb : Block.from_re line rest (found s) (found e) n eof = r at hg
  obtain ⟨b | b, r⟩ := r
  · cases hg
  · simp only [Except.ok.injEq, Prod.mk.injEq, Option.map_eq_none_iff] at hg
    rcases from_re_rest _ _ _ _ _ _ _ _ hb with ⟨-, h1⟩ | ⟨h1, h2⟩
    · rw [← hg.2, h1]
    · exfalso
      have ht : b.truthy = false := by
        cases h : b.truthy
        · rfl
        · rw [h] at hg; simp at hg
      simp only [Block.truthy, List.any_eq_false] at ht
      have hbl : Spec.Blank line := (strip_isEmpty _).1 (by simpa using ht line h2)
      rw [found, Pat.search_blank hs hbl] at h1
      cases h1

theorem keeps_line (p : Str → Bool) : Keeps (takeLine p) := by
  intro line rest rest' hg
  simp only [takeLine, Except.ok.injEq, Prod.mk.injEq] at hg
  exact hg.2.symm

theorem keeps_match (p : Pat) : Keeps (takeMatch p) := by
  intro line rest rest' hg
  simp only [takeMatch, Except.ok.injEq, Prod.mk.injEq] at hg
  exact hg.2.symm

theorem keeps_search (p : Pat) : Keeps (takeSearch p) := by
  intro line rest rest' hg
  simp only [takeSearch, Except.ok.injEq, Prod.mk.injEq] at hg
  exact hg.2.symm

theorem keeps_md : Keeps takeMd := by
  intro line rest rest' hg
  rw [takeMd] at hg
  split at hg
  · rename_i r hr
    rw [keeps_block _ _ _ _ (by decide +kernel) _ _ _ hg]
    exact keeps_block _ _ _ _ (by decide +kernel) _ _ _ hr
  · rename_i hne
    exact absurd hg (hne _)

theorem keeps_final : Keeps takeFinal := by
  intro line rest rest' hg
  rw [takeFinal] at hg
  split at hg
  · split at hg
    · split at hg <;> cases hg
    · cases hg
  · exact keeps_block _ _ _ _ (by decide +kernel) _ _ _ hg

/-- The conditions of the table. -/
inductive GrabOf : (Str → List Str → PyM (Option Hit × List Str)) → Prop
  | block (s e : Pat) (n : Nat) (hs : s.re.spaceable = false) : GrabOf (takeBlock s e n false)
  | line (p : Str → Bool) : GrabOf (takeLine p)
  | match_ (p : Pat) : GrabOf (takeMatch p)
  | search (p : Pat) : GrabOf (takeSearch p)
  | md : GrabOf takeMd
  | final : GrabOf takeFinal

theorem GrabOf.takes {g} : GrabOf g → Takes g
  | .block s e n _ => takes_block s e n
  | .line p => takes_line p
  | .match_ p => takes_match p
  | .search p => takes_search p
  | .md => takes_md
  | .final => takes_final

theorem GrabOf.extends {g} : GrabOf g → Extends g
  | .block s e n _ => extends_block s e n
  | .line p => extends_line p
  | .match_ p => extends_match p
  | .search p => extends_search p
  | .md => extends_md
  | .final => extends_final

theorem GrabOf.keeps {g} : GrabOf g → Keeps g
  | .block s e n hs => keeps_block s e n _ hs
  | .line p => keeps_line p
  | .match_ p => keeps_match p
  | .search p => keeps_search p
  | .md => keeps_md
  | .final => keeps_final

end Verif.Castep
