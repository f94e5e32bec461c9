import Verif.Lemmas.TrailWs
import Verif.Lemmas.NumberRe
/-
Two general facts about patterns: a pattern that looks behind only for a full stop behaves the same after
different texts, and ignoring case does not matter for sets closed under change of case.
-/
namespace Verif
namespace Re
open NumRe

/-! ### The text before the cursor -/

/-- Looks behind for nothing but a full stop. -/
def simOk : Re → Bool
  | .seq a b | .alt a b | .cond _ a b => simOk a && simOk b
  | .rep _ _ _ r | .group _ r | .ahead _ r => simOk r
  | .behind _ cs => decide (cs = dot)
  | .bol | .wordB _ | .backref _ _ => false
  | _ => true

/-- The same text to read, the same captures on top of `b` and `b'`. -/
structure Sim (b b' : List (Nat × Str)) (s s' : St) : Prop where
  post : s.post = s'.post
  dot : s.pre.head? = some 46 ↔ s'.pre.head? = some 46
  caps : ∃ l, s.caps = l ++ b ∧ s'.caps = l ++ b'

theorem run_behind_dot (neg : Bool) (s : St) (k : St → Option β) :
    run (.behind neg dot) s k = if decide (s.pre.head? = some 46) != neg then k s else none := by
  obtain ⟨pre, post, caps⟩ := s
  cases pre with
  | nil => rw [run_behind_nil]; simp
  | cons c pre => rw [run_behind_cons, has_dot]; simp only [List.head?_cons, Option.some.injEq]; rfl

theorem run_sim {b b' : List (Nat × Str)}
    (hb : ∀ n, (b.find? (·.1 = n)).isSome = (b'.find? (·.1 = n)).isSome) : ∀ (r : Re), simOk r = true →
    ∀ (β : Type) (s s' : St) (k k' : St → Option β), Sim b b' s s' →
    (∀ t t', Sim b b' t t' → k t = k' t') → run r s k = run r s' k' := by
  intro r
  induction r with
  | eps => intro _ β s s' k k' h hk; simp [hk s s' h]
  | set cs =>
    rintro - β ⟨pre, post, caps⟩ ⟨pre', post', caps'⟩ k k' h hk
    obtain rfl : post = post' := h.post
    cases post with
    | nil => simp
    | cons c post =>
      rw [run_set_cons, run_set_cons, hk ⟨c :: pre, post, caps⟩ ⟨c :: pre', post, caps'⟩ ⟨rfl, by simp, h.caps⟩]
  | seq a b iha ihb =>
    intro ht β s s' k k' h hk
    simp only [simOk, Bool.and_eq_true] at ht
    rw [run_seq, run_seq]
    exact iha ht.1 _ s s' _ _ h fun t t' h' => ihb ht.2 _ t t' k k' h' hk
  | alt a b iha ihb =>
    intro ht β s s' k k' h hk
    simp only [simOk, Bool.and_eq_true] at ht
    rw [run_alt, run_alt, iha ht.1 _ s s' k k' h hk, ihb ht.2 _ s s' k k' h hk]
  | cond n a b iha ihb =>
    intro ht β s s' k k' h hk
    simp only [simOk, Bool.and_eq_true] at ht
    have : (s.cap n).isSome = (s'.cap n).isSome := by
      obtain ⟨l, e, e'⟩ := h.caps
      rw [St.cap, St.cap, e, e', List.find?_append, List.find?_append]
      cases l.find? (·.1 = n) with
      | none => simpa using hb n
      | some x => rfl
    rw [run_cond, run_cond, this, iha ht.1 _ s s' k k' h hk, ihb ht.2 _ s s' k k' h hk]
  | group n r ih =>
    intro ht β s s' k k' h hk
    rw [run_group, run_group]
    refine ih ht _ s s' _ _ h fun t t' h' => hk _ _ ⟨h'.post, h'.dot, ?_⟩
    obtain ⟨l, e, e'⟩ := h'.caps
    exact ⟨(n, s.upTo t) :: l, by simp [e], by simp [e', St.upTo, h.post, h'.post]⟩
  | rep g mn mx r ih =>
    intro ht β s s' k k' h hk
    have key : ∀ (n : Nat) (mn : Nat) (mx : Option Nat) (s s' : St), Sim b b' s s' → s.post.length ≤ n →
        run (.rep g mn mx r) s k = run (.rep g mn mx r) s' k' := by
      intro n
      induction n with
      | zero =>
        intro mn mx s s' h hs
        have hr : run r s (fun t => if t.post.length < s.post.length then
              run (.rep g (mn - 1) (mx.map (· - 1)) r) t k else none)
            = run r s' fun t => if t.post.length < s'.post.length then
              run (.rep g (mn - 1) (mx.map (· - 1)) r) t k' else none := by
          refine ih ht _ s s' _ _ h fun t t' h' => ?_
          rw [if_neg (by omega), if_neg (by rw [← h'.post, ← h.post]; omega)]
        cases g
        · rw [run_rep_lazy, run_rep_lazy, hr, hk s s' h]
        · rw [run_rep_greedy, run_rep_greedy, hr, hk s s' h]
      | succ n ihn =>
        intro mn mx s s' h hs
        have hr : run r s (fun t => if t.post.length < s.post.length then
              run (.rep g (mn - 1) (mx.map (· - 1)) r) t k else none)
            = run r s' fun t => if t.post.length < s'.post.length then
              run (.rep g (mn - 1) (mx.map (· - 1)) r) t k' else none := by
          refine ih ht _ s s' _ _ h fun t t' h' => ?_
          by_cases hlt : t.post.length < s.post.length
          · rw [if_pos hlt, if_pos (by rw [← h'.post, ← h.post]; exact hlt)]
            exact ihn _ _ t t' h' (by omega)
          · rw [if_neg hlt, if_neg (by rw [← h'.post, ← h.post]; exact hlt)]
        cases g
        · rw [run_rep_lazy, run_rep_lazy, hr, hk s s' h]
        · rw [run_rep_greedy, run_rep_greedy, hr, hk s s' h]
    exact key _ _ _ s s' h (Nat.le_refl _)
  | ahead neg r ih =>
    intro ht β s s' k k' h hk
    have h1 : ∀ u : St, (run r u some).isNone = (run r u fun _ => some ()).isNone := by
      intro u; rw [run, run]; cases m r u <;> simp
    have h2 : (run r s some).isNone = (run r s' some).isNone := by
      rw [h1, h1, ih ht Unit s s' _ _ h fun _ _ _ => rfl]
    rw [run_ahead, run_ahead, h2, hk s s' h]
  | behind neg cs =>
    intro ht β s s' k k' h hk
    have : cs = dot := of_decide_eq_true ht
    subst this
    rw [run_behind_dot, run_behind_dot, hk s s' h]
    congr 1
    simp only [h.dot]
  | eol => intro _ β s s' k k' h hk; rw [run_eol, run_eol, hk s s' h, h.post]
  | bol => intro ht; simp [simOk] at ht
  | wordB neg => intro ht; simp [simOk] at ht
  | backref ci n => intro ht; simp [simOk] at ht

/-! ### Ignoring case -/

/-- The item's letters are in the list in both cases. -/
def CItem.closed (items : List CItem) : CItem → Bool
  | .ch a => if isAlpha a then decide (CItem.ch (lowerC a) ∈ items) && decide (CItem.ch (upperC a) ∈ items) else true
  | .range _ _ => false
  | _ => true

/-- Ignoring case makes no difference to the set. -/
def unciSet (cs : CSet) : CSet :=
  if cs.items.all (CItem.closed cs.items) then { cs with ci := false } else cs

/-- Drop the case flag where it makes no difference. -/
def unci : Re → Re
  | .set cs => .set (unciSet cs)
  | .seq a b => .seq (unci a) (unci b)
  | .alt a b => .alt (unci a) (unci b)
  | .cond n a b => .cond n (unci a) (unci b)
  | .rep g mn mx r => .rep g mn mx (unci r)
  | .group n r => .group n (unci r)
  | .ahead neg r => .ahead neg (unci r)
  | .behind neg cs => .behind neg (unciSet cs)
  | r => r

theorem class_lower (c : Nat) : isDigit (lowerC c) = isDigit c ∧ isSpace (lowerC c) = isSpace c ∧
    isWord (lowerC c) = isWord c := by
  by_cases h : isUpper c = true
  · rw [lowerC, if_pos h]
    simp only [isUpper, Bool.and_eq_true, decide_eq_true_eq] at h
    refine ⟨?_, ?_, ?_⟩ <;> rw [Bool.eq_iff_iff] <;>
      simp [isWord, isAlnum, isAlpha, isDigit, isUpper, isLower, isSpace] <;> omega
  · rw [lowerC, if_neg h]; simp

theorem class_upper (c : Nat) : isDigit (upperC c) = isDigit c ∧ isSpace (upperC c) = isSpace c ∧
    isWord (upperC c) = isWord c := by
  by_cases h : isLower c = true
  · rw [upperC, if_pos h]
    simp only [isLower, Bool.and_eq_true, decide_eq_true_eq] at h
    refine ⟨?_, ?_, ?_⟩ <;> rw [Bool.eq_iff_iff] <;>
      simp [isWord, isAlnum, isAlpha, isDigit, isUpper, isLower, isSpace] <;> omega
  · rw [upperC, if_neg h]; simp

theorem case_inv {c d : Nat} (hd : d = lowerC c ∨ d = upperC c) : c = lowerC d ∨ c = upperC d := by
  by_cases h1 : isUpper c = true
  · have h2 : isLower c = false := by simp [isUpper, isLower] at *; omega
    simp only [lowerC, upperC, h1, h2, if_true, Bool.false_eq_true, if_false] at hd
    rcases hd with rfl | rfl
    · right
      have : isLower (c + 32) = true := by simp [isUpper, isLower] at *; omega
      rw [upperC, if_pos this]; omega
    · right; rw [upperC, h2]; rfl
  · by_cases h2 : isLower c = true
    · simp only [lowerC, upperC, h1, h2, if_true, Bool.false_eq_true, if_false] at hd
      rcases hd with rfl | rfl
      · left; rw [lowerC, if_neg h1]
      · left
        have : isUpper (c - 32) = true := by simp [isUpper, isLower] at *; omega
        rw [lowerC, if_pos this]; simp [isLower] at h2; omega
    · simp only [lowerC, upperC, h1, h2, Bool.false_eq_true, if_false, or_self] at hd
      subst hd; left; rw [lowerC, if_neg h1]

theorem unciSet_has (cs : CSet) (c : Nat) : (unciSet cs).has c = cs.has c := by
  rw [unciSet]
  split
  · rename_i h
    rw [List.all_eq_true] at h
    have key : ∀ d, (d = lowerC c ∨ d = upperC c) → cs.items.any (·.has d) = true → cs.items.any (·.has c) = true := by
      intro d hd ha
      obtain ⟨i, hi, hh⟩ := List.any_eq_true.1 ha
      have hc := h i hi
      have hcl : isDigit d = isDigit c ∧ isSpace d = isSpace c ∧ isWord d = isWord c := by
        rcases hd with rfl | rfl
        · exact class_lower c
        · exact class_upper c
      cases i with
      | ch a =>
        simp only [CItem.has, beq_iff_eq] at hh
        subst hh
        simp only [CItem.closed] at hc
        by_cases hal : isAlpha d = true
        · rw [if_pos hal, Bool.and_eq_true, decide_eq_true_eq, decide_eq_true_eq] at hc
          have : c = lowerC d ∨ c = upperC d := case_inv hd
          refine List.any_eq_true.2 ?_
          rcases this with e | e
          · exact ⟨_, hc.1, by simp [CItem.has, e.symm]⟩
          · exact ⟨_, hc.2, by simp [CItem.has, e.symm]⟩
        · have : c = d := by
            rcases hd with rfl | rfl <;>
              simp only [lowerC, upperC, isUpper, isLower, isAlpha, Bool.or_eq_true, Bool.and_eq_true,
                decide_eq_true_eq] at * <;> split at hal <;> split <;> omega
          exact List.any_eq_true.2 ⟨_, hi, by simp [CItem.has, this]⟩
      | range a b => simp [CItem.closed] at hc
      | _ => exact List.any_eq_true.2 ⟨_, hi, by simpa [CItem.has, hcl] using hh⟩
    have e : (cs.items.any (·.has c) || (cs.ci && (cs.items.any (·.has (lowerC c)) || cs.items.any (·.has (upperC c)))))
        = cs.items.any (·.has c) := by
      rw [Bool.eq_iff_iff]
      simp only [Bool.or_eq_true, Bool.and_eq_true]
      constructor
      · rintro (h | ⟨-, h | h⟩)
        · exact h
        · exact key _ (.inl rfl) h
        · exact key _ (.inr rfl) h
      · exact .inl
    rw [CSet.has, CSet.has, e]; simp
  · rfl

theorem m_unci (r : Re) (s : St) : m (unci r) s = m r s := by
  have : m (unci r) = m r := by
    induction r with
    | set cs => funext s; exact m_set_ext (unciSet_has cs) s
    | seq a b iha ihb => funext s; simp only [unci, m, iha, ihb]
    | alt a b iha ihb => funext s; simp only [unci, m, iha, ihb]
    | cond n a b iha ihb => funext s; simp only [unci, m, iha, ihb]
    | rep g mn mx r ih => funext s; simp only [unci, m, ih]
    | group n r ih => funext s; simp only [unci, m, ih]
    | ahead neg r ih => funext s; simp only [unci, m, ih]
    | behind neg cs => funext s; simp only [unci, m, unciSet_has]
    | _ => rfl
  rw [this]

theorem run_unci (r : Re) (s : St) (k : St → Option β) : run (unci r) s k = run r s k := by
  rw [run, run, m_unci]

end Re
end Verif
