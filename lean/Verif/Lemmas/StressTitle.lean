import Verif.Lemmas.AtomVec
import Verif.Lemmas.CastepMatrix
import Verif.Spec.CastepDoc
/-
The titles of blocks of stresses.
-/
namespace Verif.Castep
open Verif Re Spec NumRe AtomRe

/-- A text whatever its case, and then something. -/
def litI : Str → Re → Re
  | [], r => r
  | c :: s, r => .seq (chi c) (litI s r)

theorem has_chi (c d : Nat) : CSet.has ⟨false, [.ch c], true⟩ d = true ↔ lowerC d = lowerC c := by
  have := lowerC_cases c
  have := lowerC_cases d
  have := upperC_cases d
  simp [CSet.has, CItem.has]
  omega

theorem gets_litI {r : Re} {caps C} : ∀ {W f pre t : Str}, Str.lower f = Str.lower W → (∀ pre', Gets r pre' t caps C) → Gets (litI W r) pre (f ++ t) caps C
  | [], [], pre, t, _, h => h pre
  | c :: W, d :: f, pre, t, e, h => by
    simp only [Str.lower, List.map_cons, List.cons.injEq] at e
    exact Gets.char ((has_chi c d).2 e.1) (gets_litI (by simpa [Str.lower] using e.2) h)
  | [], _ :: _, _, _, e, _ => by simp [Str.lower] at e
  | _ :: _, [], _, _, e, _ => by simp [Str.lower] at e

theorem run_litI_none {r : Re} {k : St → Option β} : ∀ {W s : Str} (pre : Str) (caps), (∀ f t, s = f ++ t → Str.lower f ≠ Str.lower W) → run (litI W r) ⟨pre, s, caps⟩ k = none
  | [], s, pre, caps, h => absurd rfl (h [] s rfl)
  | c :: W, [], pre, caps, h => by rw [litI, run_seq, run_set_nil]
  | c :: W, d :: s, pre, caps, h => by
    rw [litI, run_seq, run_set_cons]
    split
    · rename_i hc
      apply run_litI_none
      rintro f t rfl e
      refine h (d :: f) t rfl ?_
      have := (has_chi c d).1 hc
      simp only [Str.lower, List.map_cons] at e ⊢
      rw [this, e]
    · rfl

/-- What follows the name in the title. -/
abbrev WTail (W : Str) : Re := litI W (.seq (star spi) (.seq (.rep true 1 none (chi 42)) (.seq (star spi) (.seq (star spi) .eol))))

theorem STRESSES_eq : Res.STRESSES_BLOCK_RE.re = .seq .bol (.seq (star spi) (.seq (star spi) (.seq (.rep true 1 none (chi 42))
    (.seq (star spi) (.seq (.group 1 (star nameSet)) (WTail (py"Stress Tensor"))))))) := by
  decide +kernel

/-- No proper end of the text begins it. -/
def Borderless (W : Str) : Prop := ∀ k < W.length, 0 < k → W.take (W.length - k) ≠ W.drop k

theorem title_word {W : Str} (hb : Borderless (Str.lower W)) {w0 : Nat} (hw0 : (Str.lower W).head? = some w0) (ha : 97 ≤ w0 ∧ w0 ≤ 122)
    (hW : ∀ c ∈ Str.lower W, (97 ≤ c ∧ c ≤ 122) ∨ c = 32)
    {l name g1 s1 g2 f g3 s2 g4 : Str} (hl : l = g1 ++ (s1 ++ (g2 ++ (name ++ (f ++ (g3 ++ (s2 ++ g4)))))))
    (hg : ∀ g ∈ [g1, g2, g3, g4], Blank g) (hs : ∀ s ∈ [s1, s2], s ≠ [] ∧ ∀ c ∈ s, c = c!"*")
    (hf : Str.lower f = Str.lower W) (hn : ∀ c ∈ name, isAlpha c = true ∨ c = c!" ") (hn0 : name.head? ≠ some (c!" ")) :
    Gets (.seq .bol (.seq (star spi) (.seq (star spi) (.seq (.rep true 1 none (chi 42))
      (.seq (star spi) (.seq (.group 1 (star nameSet)) (WTail W))))))) [] l [] (fun c => c = [(1, name)]) := by
  subst hl
  have b1 := hg g1 (by simp); have b2 := hg g2 (by simp); have b3 := hg g3 (by simp); have b4 := hg g4 (by simp)
  obtain ⟨n1, q1⟩ := hs s1 (by simp)
  obtain ⟨n2, q2⟩ := hs s2 (by simp)
  have nosp : ∀ s : Str, (∀ c ∈ s, c = c!"*") → ∀ c ∈ s, isSpace c = false := by
    intro s h c hc; rw [h c hc]; rfl
  have asp : ∀ c, isAlpha c = true → isSpace c = false ∧ c ≠ 42 := by
    intro c h
    simp [isAlpha, isLower, isUpper] at h
    simp [isSpace]
    omega
  have fs : ∀ c ∈ f, isAlpha c = true ∨ c = 32 := by
    intro c hc
    have : lowerC c ∈ Str.lower W := by rw [← hf]; exact List.mem_map_of_mem hc
    have := hW _ this
    rw [isAlpha_iff]
    have := lowerC_cases c
    omega
  obtain ⟨f0, f', rfl, ef⟩ : ∃ f0 f', f = f0 :: f' ∧ lowerC f0 = w0 := by
    cases f with
    | nil => rw [← hf] at hw0; cases hw0
    | cons c f => rw [← hf] at hw0; simp [Str.lower] at hw0; exact ⟨c, f, rfl, hw0⟩
  have hf0 : isAlpha f0 = true := by
    rw [isAlpha_iff]
    have := lowerC_cases f0
    omega
  -- the text after the gap of the title
  have nameHead : ∃ w v, name ++ ((f0 :: f') ++ (g3 ++ (s2 ++ g4))) = w ++ v ∧ w ≠ [] ∧ (∀ c ∈ w, isSpace c = false) ∧
      w.head? ≠ some 42 := by
    cases name with
    | nil => exact ⟨[f0], _, rfl, by simp, by intro c hc; simp at hc; subst hc; exact (asp _ hf0).1, by
        simp; exact (asp _ hf0).2⟩
    | cons c name =>
      have hc : isAlpha c = true := by
        rcases hn c (by simp) with h | h
        · exact h
        · exact absurd (by simp [h]) hn0
      exact ⟨[c], _, rfl, by simp, by intro d hd; simp at hd; subst hd; exact (asp _ hc).1, by simp; exact (asp _ hc).2⟩
  obtain ⟨w, v, ew, hw1, hw2, hw3⟩ := nameHead
  have noStar : (g2 ++ (w ++ v)).head? ≠ some 42 := by
    cases g2 with
    | nil =>
      cases w with
      | nil => exact absurd rfl hw1
      | cons c w => simpa using hw3
    | cons c g2 =>
      have := b2 c (by simp)
      intro e; simp at e; subst e; cases this
  apply Gets.bol
  refine gapsI b1 n1 (nosp _ q1) fun _ => ?_
  refine gapsI (g := []) (by intro c hc; cases hc) n1 (nosp _ q1) fun _ => ?_
  rw [ew]
  refine starsI n1 q1 noStar fun _ => ?_
  refine gapsI b2 hw1 hw2 fun pre => ?_
  rw [← ew]
  have tail : Gets (WTail W) (name.reverse ++ pre) ((f0 :: f') ++ (g3 ++ (s2 ++ g4))) [(1, name)] (fun c => c = [(1, name)]) := by
    refine gets_litI hf fun pre => ?_
    refine gapsI b3 n2 (nosp _ q2) fun _ => ?_
    refine starsI n2 q2 ?_ fun _ => finishI b4 rfl
    cases g4 with
    | nil => simp
    | cons c g4 =>
      have := b4 c (by simp)
      intro e; simp at e; subst e; cases this
  obtain ⟨t, h5, h6⟩ := tail
  refine ⟨t, ?_, h6⟩
  rw [run_seq, run_group]
  have split3 : ∃ u r, g3 ++ (s2 ++ g4) = u ++ r ∧ (∀ c ∈ u, c = 32) ∧ Stops nameSet r := by
    refine ⟨g3.takeWhile (· == 32), g3.dropWhile (· == 32) ++ (s2 ++ g4), ?_, ?_, ?_⟩
    · rw [← List.append_assoc (List.takeWhile _ _), List.takeWhile_append_dropWhile]
    · intro c hc
      have := List.all_eq_true.1 (List.all_takeWhile (l := g3) (p := (· == 32))) c hc
      simpa using this
    · intro c hc
      have hne : isAlpha c = false ∧ c ≠ 32 := by
        cases hd : g3.dropWhile (· == 32) with
        | nil =>
          rw [hd] at hc
          cases s2 with
          | nil => exact absurd rfl n2
          | cons d s2 => simp at hc; subst hc; rw [q2 d (by simp)]; decide
        | cons d q =>
          rw [hd] at hc; simp at hc; subst hc
          have h1 := List.head_dropWhile_not (p := (· == 32)) (l := g3) (by rw [hd]; simp)
          have h2 : d ∈ g3 := (List.dropWhile_suffix (p := (· == 32)) (l := g3)).subset (by rw [hd]; simp)
          have h3 := b3 d h2
          simp only [hd, List.head_cons] at h1
          refine ⟨?_, by simpa using h1⟩
          cases h4 : isAlpha d with
          | false => rfl
          | true => rw [(asp d h4).1] at h3; cases h3
      cases h : nameSet.has c with
      | false => rfl
      | true =>
        rcases (has_nameSet c).1 h with h | h
        · rw [hne.1] at h; cases h
        · exact absurd h hne.2
  obtain ⟨u, r, eu, hu, hr⟩ := split3
  rw [eu] at h5 ⊢
  rw [← List.append_assoc (f0 :: f')] at h5 ⊢
  refine run_star_give nameSet r hr ((f0 :: f') ++ u) ?_ name pre [] _ t ?_ ?_ ?_
  · intro c hc
    rw [has_nameSet]
    rcases List.mem_append.1 hc with hc | hc
    · exact fs c hc
    · exact .inr (hu c hc)
  · intro c hc
    rw [has_nameSet]; exact hn c hc
  · intro a b e ha
    show run (WTail W) ⟨_, b ++ r, _⟩ some = none
    refine run_litI_none _ _ fun x y hxy hx => ?_
    -- the first character of `x`
    have hx0 : ∃ x0 x', x = x0 :: x' ∧ lowerC x0 = w0 := by
      cases x with
      | nil => rw [← hx] at hw0; cases hw0
      | cons c x => rw [← hx] at hw0; simp [Str.lower] at hw0; exact ⟨c, x, rfl, hw0⟩
    obtain ⟨x0, x', ex, h0⟩ := hx0
    rcases List.append_eq_append_iff.1 e with ⟨c, h1, h2⟩ | ⟨c, h1, h2⟩
    · -- within the blanks
      cases b with
      | nil =>
        rw [List.nil_append, ex] at hxy
        have h3 := hr x0 (by rw [hxy]; rfl)
        have h4 := (has_nameSet x0).2 (.inl (by rw [isAlpha_iff]; have := lowerC_cases x0; omega))
        rw [h3] at h4; cases h4
      | cons d b =>
        rw [ex] at hxy
        simp only [List.cons_append, List.cons.injEq] at hxy
        have := hu d (by rw [h2]; simp)
        rw [← hxy.1, this] at h0
        have : lowerC 32 = 32 := rfl
        omega
    · -- within the text
      have hla : a.length < (Str.lower W).length ∨ a.length = (Str.lower W).length := by
        have := congrArg List.length h1
        rw [← hf, Str.lower, List.length_map, this, List.length_append]
        omega
      rcases hla with hla | hla
      · refine hb a.length hla (by cases a with | nil => exact absurd rfl ha | cons _ _ => simp) ?_
        have hlen : x.length = (Str.lower W).length := by rw [← hx, Str.lower, List.length_map]
        have hWl : (Str.lower W).length = a.length + c.length := by
          rw [← hf, Str.lower, List.length_map, h1, List.length_append]
        have e1 : (Str.lower W).drop a.length = Str.lower c := by
          rw [← hf, h1, Str.lower, List.map_append, List.drop_left' (by simp)]; rfl
        have e2 : (Str.lower W).take ((Str.lower W).length - a.length) = Str.lower c := by
          have e3 : x.take c.length = c := by
            have : (b ++ r).take c.length = (x ++ y).take c.length := by rw [hxy]
            rw [h2, List.append_assoc, List.take_left' rfl, List.take_append_of_le_length (by omega)] at this
            exact this.symm
          rw [← hx, hx, hWl, Nat.add_sub_cancel_left, ← hx, Str.lower, ← List.map_take, e3]; rfl
        rw [e1, e2]
      · have hc : c = [] := by
          have := congrArg List.length h1
          rw [← hf, Str.lower, List.length_map, this, List.length_append] at hla
          exact List.eq_nil_of_length_eq_zero (by omega)
        subst hc
        rw [List.nil_append] at h2
        subst h2
        cases b with
        | nil =>
          rw [List.nil_append, ex] at hxy
          have h3 := hr x0 (by rw [hxy]; rfl)
          have h4 := (has_nameSet x0).2 (.inl (by rw [isAlpha_iff]; have := lowerC_cases x0; omega))
          rw [h3] at h4; cases h4
        | cons d b =>
          rw [ex] at hxy
          simp only [List.cons_append, List.cons.injEq] at hxy
          have := hu d (by simp)
          rw [← hxy.1, this] at h0
          have : lowerC 32 = 32 := rfl
          omega
  · rw [upTo_append]; exact h5

instance (W : Str) : Decidable (Borderless W) := inferInstanceAs (Decidable (∀ k < W.length, _))

theorem stress_title {l name : Str} (h : StressTitle l name) : Gets Res.STRESSES_BLOCK_RE.re [] l [] (fun c => c = [(1, name)]) := by
  obtain ⟨g1, s1, g2, f, g3, s2, g4, hl, hg, hs, hf, hn, hn0⟩ := h
  rw [STRESSES_eq]
  exact title_word (by decide +kernel) (w0 := c!"s") (by decide) (by decide) (by decide +kernel) hl hg hs (by rw [hf]; decide) hn hn0

end Verif.Castep
