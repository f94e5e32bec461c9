import Verif.Lemmas.Match
import Verif.Spec.Text
/-
Whitespace after the text does not change what a pattern captures, as long as the pattern neither asks
for the end of the text nor looks ahead at whitespace.
-/
namespace Verif
open Spec

theorem isSpace_lowerC {c : Nat} (h : isSpace c = true) : lowerC c = c := by
  have : isUpper c = false := by
    rw [Bool.eq_false_iff]; intro hu
    simp only [isUpper, Bool.and_eq_true, decide_eq_true_eq] at hu
    simp [isSpace] at h; omega
  simp [lowerC, this]

theorem isSpace_upperC {c : Nat} (h : isSpace c = true) : upperC c = c := by
  have : isLower c = false := by
    rw [Bool.eq_false_iff]; intro hu
    simp only [isLower, Bool.and_eq_true, decide_eq_true_eq] at hu
    simp [isSpace] at h; omega
  simp [upperC, this]

theorem isSpace_isWord {c : Nat} (h : isSpace c = true) : isWord c = false := by
  rw [Bool.eq_false_iff]; intro hu
  simp only [isWord, isAlnum, isAlpha, isDigit, isUpper, isLower, Bool.or_eq_true, Bool.and_eq_true, decide_eq_true_eq,
    beq_iff_eq] at hu
  simp [isSpace] at h; omega

theorem isSpace_isDigit {c : Nat} (h : isSpace c = true) : isDigit c = false := by
  rw [Bool.eq_false_iff]; intro hu
  simp only [isDigit, Bool.and_eq_true, decide_eq_true_eq] at hu
  simp [isSpace] at h; omega

namespace Re

/-- Items without whitespace. -/
def CItem.noSpace : CItem → Bool
  | .ch c => !isSpace c
  | .digit | .word => true
  | _ => false

/-- A set without whitespace. -/
def noSpace (cs : CSet) : Bool := !cs.neg && cs.items.all CItem.noSpace

theorem noSpace_has {cs : CSet} (h : noSpace cs = true) {c : Nat} (hc : isSpace c = true) : cs.has c = false := by
  simp only [noSpace, Bool.and_eq_true, Bool.not_eq_true', List.all_eq_true] at h
  have h1 : cs.items.any (·.has c) = false := by
    rw [List.any_eq_false]
    intro i hi
    have := h.2 i hi
    cases i with
    | ch d =>
      simp only [CItem.noSpace, Bool.not_eq_true'] at this
      simp only [CItem.has, beq_iff_eq]; rintro rfl; rw [hc] at this; cases this
    | digit => simp [CItem.has, isSpace_isDigit hc]
    | word => simp [CItem.has, isSpace_isWord hc]
    | _ => simp [CItem.noSpace] at this
  rw [CSet.has, h.1, isSpace_lowerC hc, isSpace_upperC hc, h1]
  simp

/-- Neither `$` nor back references, and only looks ahead at sets without whitespace. -/
def tame : Re → Bool
  | .seq a b | .alt a b | .cond _ a b => tame a && tame b
  | .rep _ _ _ r | .group _ r => tame r
  | .ahead _ (.set cs) => noSpace cs
  | .ahead _ _ | .eol | .backref _ _ => false
  | _ => true

/-- The state with text added at the end. -/
def ext (ws : Str) (s : St) : St := { s with post := s.post ++ ws }

theorem run_short {r : Re} {s : St} {k : St → Option β} {n : Nat} (hs : s.post.length < n)
    (hout : ∀ t : St, t.post.length < n → k t = none) : run r s k = none :=
  run_none fun w t h _ => hout t (by have := congrArg List.length h.post; simp at this; omega)

theorem run_ext (ws : Str) (hws : Blank ws) : ∀ (r : Re), tame r = true → ∀ (s : St) (k k' : St → Option β),
    (∀ t, k' (ext ws t) = k t) → (∀ t : St, t.post.length < ws.length → k' t = none) →
    run r (ext ws s) k' = run r s k := by
  intro r
  induction r with
  | eps => intro _ s k k' h _; simp [h]
  | set cs =>
    rintro - ⟨pre, post, caps⟩ k k' h ho
    cases post with
    | nil =>
      rw [run_set_nil]
      cases ws with
      | nil => simp [ext]
      | cons c ws =>
        show run (.set cs) ⟨pre, c :: ws, caps⟩ k' = none
        rw [run_set_cons, ho _ (by simp)]; simp
    | cons c post =>
      show run (.set cs) ⟨pre, c :: (post ++ ws), caps⟩ k' = _
      rw [run_set_cons, run_set_cons]
      have := h ⟨c :: pre, post, caps⟩
      rw [← this]; rfl
  | seq a b iha ihb =>
    intro ht s k k' h ho
    simp only [tame, Bool.and_eq_true] at ht
    rw [run_seq, run_seq]
    exact iha ht.1 s _ _ (fun t => ihb ht.2 t k k' h ho) fun t hl => run_short hl ho
  | alt a b iha ihb =>
    intro ht s k k' h ho
    simp only [tame, Bool.and_eq_true] at ht
    rw [run_alt, run_alt, iha ht.1 s k k' h ho, ihb ht.2 s k k' h ho]
  | cond n a b iha ihb =>
    intro ht s k k' h ho
    simp only [tame, Bool.and_eq_true] at ht
    rw [run_cond, run_cond, iha ht.1 s k k' h ho, ihb ht.2 s k k' h ho]
    rfl
  | group n r ih =>
    intro ht s k k' h ho
    rw [run_group, run_group]
    refine ih ht s _ _ (fun t => ?_) fun t hl => ho _ hl
    rw [← h]
    have : (ext ws s).upTo (ext ws t) = s.upTo t := by
      simp only [St.upTo, ext, List.length_append]
      rw [List.take_append_of_le_length (by omega)]
      congr 1; omega
    rw [this]; rfl
  | rep g mn mx r ih =>
    intro ht s k k' h ho
    have key : ∀ (n : Nat) (mn : Nat) (mx : Option Nat) (s : St), s.post.length ≤ n →
        run (.rep g mn mx r) (ext ws s) k' = run (.rep g mn mx r) s k := by
      intro n
      induction n with
      | zero =>
        intro mn mx s hs
        have hr : run r (ext ws s) (fun t => if t.post.length < (ext ws s).post.length then
              run (.rep g (mn - 1) (mx.map (· - 1)) r) t k' else none)
            = run r s fun t => if t.post.length < s.post.length then
              run (.rep g (mn - 1) (mx.map (· - 1)) r) t k else none := by
          refine ih ht s _ _ (fun t => ?_) fun t hl => ?_
          · rw [if_neg (by simp [ext]; omega), if_neg (by omega)]
          · split
            · exact run_short hl ho
            · rfl
        cases g
        · rw [run_rep_lazy, run_rep_lazy, hr, h]
        · rw [run_rep_greedy, run_rep_greedy, hr, h]
      | succ n ihn =>
        intro mn mx s hs
        have hr : run r (ext ws s) (fun t => if t.post.length < (ext ws s).post.length then
              run (.rep g (mn - 1) (mx.map (· - 1)) r) t k' else none)
            = run r s fun t => if t.post.length < s.post.length then
              run (.rep g (mn - 1) (mx.map (· - 1)) r) t k else none := by
          refine ih ht s _ _ (fun t => ?_) fun t hl => ?_
          · by_cases hlt : t.post.length < s.post.length
            · rw [if_pos (by simp [ext]; omega), if_pos hlt]
              exact ihn _ _ t (by omega)
            · rw [if_neg (by simp [ext]; omega), if_neg hlt]
          · split
            · exact run_short hl ho
            · rfl
        cases g
        · rw [run_rep_lazy, run_rep_lazy, hr, h]
        · rw [run_rep_greedy, run_rep_greedy, hr, h]
    exact key _ _ _ s (Nat.le_refl _)
  | ahead neg r ih =>
    intro ht s k k' h ho
    cases r with
    | set cs =>
      have ht : noSpace cs = true := ht
      rw [run_ahead, run_ahead, h]
      have : (run (.set cs) (ext ws s) some).isNone = (run (.set cs) s some).isNone := by
        obtain ⟨pre, post, caps⟩ := s
        cases post with
        | nil =>
          rw [run_set_nil]
          cases ws with
          | nil => simp [ext]
          | cons c ws =>
            show (run (.set cs) ⟨pre, c :: ws, caps⟩ some).isNone = _
            rw [run_set_cons, noSpace_has ht (hws c (by simp))]; simp
        | cons c post =>
          show (run (.set cs) ⟨pre, c :: (post ++ ws), caps⟩ some).isNone = _
          rw [run_set_cons, run_set_cons]
          split <;> rfl
      rw [this]
    | _ => simp [tame] at ht
  | behind neg cs =>
    rintro - ⟨pre, post, caps⟩ k k' h ho
    cases pre with
    | nil => rw [run_behind_nil, ← h]; exact run_behind_nil _ _ _ _ _
    | cons c pre => rw [run_behind_cons, ← h]; exact run_behind_cons _ _ _ _ _ _ _
  | bol => intro _ s k k' h ho; rw [run_bol, run_bol, h]; rfl
  | wordB neg =>
    intro _ s k k' h ho
    rw [run_wordB, run_wordB, h]
    have : wordAfter (ext ws s) = wordAfter s := by
      obtain ⟨pre, post, caps⟩ := s
      cases post with
      | nil =>
        cases ws with
        | nil => rfl
        | cons c ws => exact isSpace_isWord (hws c (by simp))
      | cons c post => rfl
    rw [this]; rfl
  | eol => intro ht; simp [tame] at ht
  | backref ci n => intro ht; simp [tame] at ht

/-- `\s*$` matches exactly when only whitespace is left. -/
theorem run_ws_eol (s : St) (k : St → Option β) (hk : ∀ t t' : St, t.caps = t'.caps → k t = k t') :
    run (.rep true 0 none (.set ⟨false, [.space], false⟩)) s (fun t => run .eol t k) =
      if s.post.all isSpace then k s else none := by
  obtain ⟨pre, post, caps⟩ := s
  by_cases hb : post.all isSpace = true
  · rw [if_pos hb]
    cases hx : k ⟨pre, post, caps⟩ with
    | none =>
      apply run_none
      intro w t hs _
      rw [run_eol]
      split
      · obtain ⟨c, hc, hc'⟩ := hs.caps
        rw [hk t ⟨pre, post, caps⟩, hx]
        cases c with
        | nil => simpa using hc
        | cons p c => obtain ⟨r, hr, _⟩ := hc' p (by simp); simp [groupsOf] at hr
      · rfl
    | some x =>
      have := run_star_all ⟨false, [.space], false⟩ post pre [] none caps (fun t => run .eol t k) x
        (by intro c hc; simpa [CSet.has, CItem.has] using List.all_eq_true.1 hb c hc)
        (by intro c hc; cases hc) (by simp)
        (by rw [run_eol]; simp; exact (hk ⟨List.reverse post ++ pre, [], caps⟩ ⟨pre, post, caps⟩ rfl).trans hx)
      simpa using this
  · rw [if_neg hb]
    apply run_none
    rintro w t hs ⟨ws, rfl, -, -, hw⟩
    rw [run_eol, if_neg]
    intro he
    apply hb
    have hp := hs.post
    simp only at hp
    rw [hp, List.all_append, Bool.and_eq_true]
    refine ⟨?_, ?_⟩
    · rw [List.all_eq_true]
      intro c hc
      obtain ⟨u, hu, hcu⟩ := List.mem_flatten.1 hc
      obtain ⟨d, hd, rfl⟩ := hw u hu
      simp only [List.mem_singleton] at hcu
      subst hcu
      simpa [CSet.has, CItem.has] using hd
    · simp only [Bool.or_eq_true, List.isEmpty_iff, beq_iff_eq] at he
      rcases he with he | he <;> rw [he] <;> decide

/-! ### Patterns ending in `\s*$` -/

theorem run_congr {r : Re} {s : St} {k k' : St → Option β}
    (h : ∀ t w, Step (groupsOf r) s t w → Lang r w → k t = k' t) : run r s k = run r s k' := by
  have : ∀ t ∈ m r s, k t = k' t := by
    intro t ht
    obtain ⟨w, hs, hl⟩ := m_sound r s t ht
    exact h t w hs hl
  rw [run, run]
  revert this
  generalize m r s = l
  intro h
  induction l with
  | nil => rfl
  | cons a l ih =>
    rw [List.findSome?_cons, List.findSome?_cons, h a (by simp), ih fun t ht => h t (by simp [ht])]

/-- Items containing all the whitespace. -/
def CItem.isSpaces : CItem → Bool
  | .space => true
  | _ => false

/-- Items without whitespace. -/
def CItem.visible : CItem → Bool
  | .ch c => !isSpace c
  | .digit | .word | .notSpace => true
  | .range a b => decide (33 ≤ a) && decide (b < 0x85)
  | _ => false

/-- A set without whitespace (more generous than `noSpace`). -/
def visible (cs : CSet) : Bool :=
  if cs.neg then cs.items.any CItem.isSpaces else cs.items.all CItem.visible

theorem visible_has {cs : CSet} (h : visible cs = true) {c : Nat} (hc : isSpace c = true) : cs.has c = false := by
  rw [visible] at h
  split at h
  · rename_i hn
    have : cs.items.any (·.has c) = true := by
      obtain ⟨i, hi, h⟩ := List.any_eq_true.1 h
      refine List.any_eq_true.2 ⟨i, hi, ?_⟩
      cases i <;> simp [CItem.isSpaces] at h
      exact hc
    rw [CSet.has, hn, this]; simp
  · rename_i hn
    have h1 : cs.items.any (·.has c) = false := by
      rw [List.any_eq_false]
      intro i hi
      have := List.all_eq_true.1 h i hi
      cases i with
      | ch d =>
        simp only [CItem.visible, Bool.not_eq_true'] at this
        simp only [CItem.has, beq_iff_eq]; rintro rfl; rw [hc] at this; cases this
      | digit => simp [CItem.has, isSpace_isDigit hc]
      | word => simp [CItem.has, isSpace_isWord hc]
      | notSpace => simp [CItem.has, hc]
      | range a b =>
        simp only [CItem.visible, Bool.and_eq_true, decide_eq_true_eq] at this
        simp only [CItem.has, Bool.and_eq_true, decide_eq_true_eq]
        rintro ⟨h1, h2⟩
        simp [isSpace] at hc; omega
      | _ => simp [CItem.visible] at this
    have hn : cs.neg = false := by simpa using hn
    rw [CSet.has, hn, isSpace_lowerC hc, isSpace_upperC hc, h1]
    simp

mutual
/-- Every word matched is non-empty and does not end in whitespace. -/
def endsVisible : Re → Bool
  | .set cs => visible cs
  | .seq a b => endsVisible b || (endsVisible0 b && endsVisible a)
  | .alt a b | .cond _ a b => endsVisible a && endsVisible b
  | .rep _ mn _ r => decide (1 ≤ mn) && endsVisible r
  | .group _ r => endsVisible r
  | _ => false
/-- Every word matched is empty or does not end in whitespace. -/
def endsVisible0 : Re → Bool
  | .set cs => visible cs
  | .seq a b => endsVisible b || (endsVisible0 b && endsVisible0 a)
  | .alt a b | .cond _ a b => endsVisible0 a && endsVisible0 b
  | .rep _ _ _ r => endsVisible0 r
  | .group _ r => endsVisible0 r
  | .backref _ _ => false
  | _ => true
end

/-- `w` does not end in whitespace. -/
def VisEnd (w : Str) : Prop := ∀ c, w.getLast? = some c → isSpace c = false

theorem visEnd_append {u v : Str} (hu : VisEnd u) (hv : VisEnd v) : VisEnd (u ++ v) := by
  intro c hc
  cases v with
  | nil => rw [List.append_nil] at hc; exact hu c hc
  | cons a v =>
    rw [List.getLast?_append] at hc
    exact hv c (by simpa using hc)

theorem visEnd_right {u v : Str} (hne : v ≠ []) (hv : VisEnd v) : VisEnd (u ++ v) := by
  intro c hc
  rcases List.eq_nil_or_concat v with rfl | ⟨w, d, rfl⟩
  · exact absurd rfl hne
  · rw [List.concat_eq_append] at *
    apply hv
    rw [← List.append_assoc] at hc
    simpa using hc

theorem ends_lang (r : Re) : (endsVisible r = true → ∀ w, Lang r w → w ≠ [] ∧ VisEnd w) ∧
    (endsVisible0 r = true → ∀ w, Lang r w → VisEnd w) := by
  induction r with
  | set cs =>
    have : visible cs = true → ∀ w, Lang (.set cs) w → w ≠ [] ∧ VisEnd w := by
      rintro h w ⟨c, hc, rfl⟩
      refine ⟨by simp, ?_⟩
      intro d hd
      simp only [List.getLast?_singleton, Option.some.injEq] at hd
      subst hd
      rw [Bool.eq_false_iff]
      intro hs
      rw [visible_has h hs] at hc; cases hc
    exact ⟨this, fun h w hw => (this h w hw).2⟩
  | seq a b iha ihb =>
    refine ⟨?_, ?_⟩
    · rintro h w ⟨u, v, rfl, hu, hv⟩
      simp only [endsVisible, Bool.or_eq_true, Bool.and_eq_true] at h
      rcases h with h | ⟨h1, h2⟩
      · have := ihb.1 h v hv
        exact ⟨by simp [this.1], visEnd_right this.1 this.2⟩
      · have := iha.1 h2 u hu
        exact ⟨by simp [this.1], visEnd_append this.2 (ihb.2 h1 v hv)⟩
    · rintro h w ⟨u, v, rfl, hu, hv⟩
      simp only [endsVisible0, Bool.or_eq_true, Bool.and_eq_true] at h
      rcases h with h | ⟨h1, h2⟩
      · have := ihb.1 h v hv
        exact visEnd_right this.1 this.2
      · exact visEnd_append (iha.2 h2 u hu) (ihb.2 h1 v hv)
  | alt a b iha ihb =>
    refine ⟨?_, ?_⟩
    · intro h w hw
      simp only [endsVisible, Bool.and_eq_true] at h
      rcases hw with hw | hw
      · exact iha.1 h.1 w hw
      · exact ihb.1 h.2 w hw
    · intro h w hw
      simp only [endsVisible0, Bool.and_eq_true] at h
      rcases hw with hw | hw
      · exact iha.2 h.1 w hw
      · exact ihb.2 h.2 w hw
  | cond n a b iha ihb =>
    refine ⟨?_, ?_⟩
    · intro h w hw
      simp only [endsVisible, Bool.and_eq_true] at h
      rcases hw with hw | hw
      · exact iha.1 h.1 w hw
      · exact ihb.1 h.2 w hw
    · intro h w hw
      simp only [endsVisible0, Bool.and_eq_true] at h
      rcases hw with hw | hw
      · exact iha.2 h.1 w hw
      · exact ihb.2 h.2 w hw
  | group n r ih => exact ⟨fun h w hw => ih.1 h w hw, fun h w hw => ih.2 h w hw⟩
  | rep g mn mx r ih =>
    refine ⟨?_, ?_⟩
    · rintro h w ⟨ws, rfl, h1, -, h3⟩
      simp only [endsVisible, Bool.and_eq_true, decide_eq_true_eq] at h
      have : ∀ ws : List Str, (∀ v ∈ ws, v ≠ [] ∧ VisEnd v) → 1 ≤ ws.length → ws.flatten ≠ [] ∧ VisEnd ws.flatten := by
        intro ws
        induction ws with
        | nil => intro _ h; simp at h
        | cons v ws ih =>
          intro hv _
          have h0 := hv v (by simp)
          refine ⟨by simp [h0.1], ?_⟩
          rw [List.flatten_cons]
          cases ws with
          | nil => simpa using h0.2
          | cons u ws =>
            have := ih (fun x hx => hv x (by simp [hx])) (by simp)
            exact visEnd_right this.1 this.2
      exact this ws (fun v hv => ih.1 h.2 v (h3 v hv)) (by omega)
    · rintro h w ⟨ws, rfl, -, -, h3⟩
      have : ∀ ws : List Str, (∀ v ∈ ws, VisEnd v) → VisEnd ws.flatten := by
        intro ws
        induction ws with
        | nil => intro _ c hc; cases hc
        | cons v ws ih =>
          intro hv
          rw [List.flatten_cons]
          exact visEnd_append (hv v (by simp)) (ih fun x hx => hv x (by simp [hx]))
      exact this ws fun v hv => ih.2 h v (h3 v hv)
  | backref ci n => simp [endsVisible, endsVisible0]
  | _ =>
    refine ⟨by simp [endsVisible], ?_⟩
    intro _ w hw c hc
    have : w = [] := hw
    subst this; cases hc

/-- `\s*$` -/
def wsEol : Re := .seq (.rep true 0 none (.set ⟨false, [.space], false⟩)) .eol
/-- `\s*$` when case is ignored -/
def wsEolCi : Re := .seq (.rep true 0 none (.set ⟨false, [.space], true⟩)) .eol

/-- The pattern before a final `\s*$`. -/
def cutTail (tail : Re) : Re → Option Re
  | .seq a b => if Re.seq a b = tail then some .eps else (cutTail tail b).map (.seq a)
  | _ => none

theorem run_cutTail (tail : Re) : ∀ (r r0 : Re), cutTail tail r = some r0 → ∀ (s : St) (k : St → Option β),
    run r s k = run r0 s fun t => run tail t k := by
  intro r
  induction r with
  | seq a b _ ih =>
    intro r0 h s k
    rw [cutTail] at h
    split at h
    · rename_i e; cases h; rw [e]; simp
    · cases hb : cutTail tail b with
      | none => rw [hb] at h; cases h
      | some b0 =>
        rw [hb] at h; cases h
        rw [run_seq, run_seq]
        congr 1; funext t; exact ih b0 hb t k
  | _ => intro r0 h; simp [cutTail] at h

/-- A pattern `r0\s*$` captures the same with whitespace added at the end. -/
theorem run_trail (r0 : Re) (ht : tame r0 = true) (he : endsVisible r0 = true) (ws : Str) (hws : Blank ws)
    (s : St) (k : St → Option β) (hk : ∀ t t' : St, t.caps = t'.caps → k t = k t')
    (tail : Re) (htail : ∀ s : St, run tail s k = if s.post.all isSpace then k s else none) :
    run r0 (ext ws s) (fun t => run tail t k) = run r0 s fun t => run tail t k := by
  have h1 : run r0 (ext ws s) (fun t => run tail t k) =
      run r0 (ext ws s) fun t => if t.post.length < ws.length then none else run tail t k := by
    apply run_congr
    intro t w hs hl
    rw [if_neg]
    intro hlt
    have hp := hs.post
    simp only [ext] at hp
    obtain ⟨hne, hv⟩ := (ends_lang r0).1 he w hl
    -- the last character consumed lies in `ws`
    have hlen := congrArg List.length hp
    simp only [List.length_append] at hlen
    rcases List.eq_nil_or_concat w with rfl | ⟨w', c, rfl⟩
    · exact hne rfl
    · rw [List.concat_eq_append] at *
      have hc : isSpace c = false := hv c (by simp)
      have hsuf : (c :: t.post) <:+ ws := by
        apply List.suffix_of_suffix_length_le (l₃ := s.post ++ ws)
        · exact ⟨w', by rw [hp]; simp⟩
        · exact ⟨s.post, rfl⟩
        · simp; omega
      obtain ⟨v, hv⟩ := hsuf
      have := hws c (by rw [← hv]; simp)
      rw [hc] at this; cases this
  rw [h1]
  refine run_ext ws hws r0 ht s _ _ (fun t => ?_) fun t hl => by rw [if_pos hl]
  rw [if_neg (by simp [ext])]
  rw [htail, htail]
  have : (ext ws t).post.all isSpace = t.post.all isSpace := by
    simp only [ext, List.all_append]
    rw [List.all_eq_true.2 hws, Bool.and_true]
  rw [this, hk (ext ws t) t rfl]

theorem run_wsEol (s : St) (k : St → Option β) (hk : ∀ t t' : St, t.caps = t'.caps → k t = k t') :
    run wsEol s k = if s.post.all isSpace then k s else none := by
  rw [wsEol, run_seq]; exact run_ws_eol s k hk

theorem has_space_ci (c : Nat) : CSet.has ⟨false, [.space], true⟩ c = CSet.has ⟨false, [.space], false⟩ c := by
  simp only [CSet.has, List.any_cons, List.any_nil, CItem.has, Bool.or_false, Bool.true_and, Bool.false_bne,
    Bool.false_and]
  by_cases h : isSpace c = true
  · simp [h]
  · have h1 : isSpace (lowerC c) = false := by
      rw [Bool.eq_false_iff]; intro h'
      apply h
      by_cases hu : isUpper c = true
      · rw [lowerC, if_pos hu] at h'
        simp [isUpper] at hu; simp [isSpace] at h'; omega
      · rwa [lowerC, if_neg hu] at h'
    have h2 : isSpace (upperC c) = false := by
      rw [Bool.eq_false_iff]; intro h'
      apply h
      by_cases hu : isLower c = true
      · rw [upperC, if_pos hu] at h'
        simp [isLower] at hu; simp [isSpace] at h'; omega
      · rwa [upperC, if_neg hu] at h'
    simp [h1, h2]

theorem run_set_ext {cs cs' : CSet} (h : ∀ c, cs.has c = cs'.has c) (s : St) (k : St → Option β) :
    run (.set cs) s k = run (.set cs') s k := by
  obtain ⟨pre, post, caps⟩ := s
  cases post with
  | nil => simp
  | cons c post => rw [run_set_cons, run_set_cons, h]

theorem run_rep_ext {r r' : Re} (h : ∀ s, m r s = m r' s) (g : Bool) (mn : Nat) (mx : Option Nat) (s : St)
    (k : St → Option β) : run (.rep g mn mx r) s k = run (.rep g mn mx r') s k := by
  rw [run, run, m, m, show m r = m r' from funext h]

theorem m_set_ext {cs cs' : CSet} (h : ∀ c, cs.has c = cs'.has c) (s : St) : m (.set cs) s = m (.set cs') s := by
  obtain ⟨pre, post, caps⟩ := s
  cases post <;> simp [m, h]

theorem run_wsEolCi (s : St) (k : St → Option β) (hk : ∀ t t' : St, t.caps = t'.caps → k t = k t') :
    run wsEolCi s k = if s.post.all isSpace then k s else none := by
  rw [← run_wsEol s k hk, wsEol, wsEolCi, run_seq, run_seq]
  exact run_rep_ext (m_set_ext has_space_ci) ..

end Re
end Verif
