import Verif.Spec.XcDef
import Verif.Lemmas.CellBlocks
import Verif.Lemmas.Magres
import Verif.Lemmas.GenBlock
import Verif.Lemmas.LineTables
import Verif.Lemmas.DeltaScf
/-
Definitions of functionals.
-/
namespace Verif
open Re NumRe AtomRe Spec

namespace XcDef
open Cell hiding sp has_sp upS

/-- `line.split(maxsplit=1)` passes over the indentation. -/
theorem split1_indent {g : Str} (hg : Blank g) (s : Str) : Str.split1 (g ++ s) = Str.split1 s := by
  have : Str.lstrip (g ++ s) = Str.lstrip s := by
    rw [Str.lstrip, Str.lstrip]
    exact List.dropWhile_append_of_pos (fun x hx => hg x hx)
  simp only [Str.split1, this]

/-- Upper case and lower case say the same about letters. -/
theorem upper_on (t : Str) : Str.upper t = py"ON" ↔ Str.lower t = py"on" := by
  have key : ∀ c d : Nat, (d = 79 ∨ d = 78) → (upperC c = d ↔ lowerC c = d + 32) := by
    intro c d hd
    simp only [upperC, lowerC, isUpper, isLower, Bool.and_eq_true, decide_eq_true_eq]
    split <;> split <;> omega
  have h1 := fun c => key c 79 (.inl rfl)
  have h2 := fun c => key c 78 (.inr rfl)
  match t with
  | [] => simp [Str.upper, Str.lower]
  | [_] => simp [Str.upper, Str.lower]
  | [a, b] => simp [Str.upper, Str.lower, h1, h2]
  | _ :: _ :: _ :: _ => simp [Str.upper, Str.lower]

theorem text_visible {i : XcItem} (h : i.Ok) : XcItem.Visible i.text := by
  have hn : ∀ {n : Numeral}, n.Valid → XcItem.Visible n.text := by
    intro n hv
    obtain ⟨d, r, e, hs, -⟩ := AtomVec.num_head hv (s := [])
    rw [List.append_nil] at e
    rw [e]
    exact ⟨by simp, by intro c hc; cases hc; exact hs⟩
  cases i with
  | weight k n => exact hn h.1.1
  | length n => exact hn h.1
  | func t => exact h
  | ppd t => exact h
  | divergence t => exact h

theorem line_split {l : Str} {i : XcItem} (hl : i.Line l) (h : i.Ok) : ∃ name, Str.split1 l = [name, i.text] ∧ normalise_key name = i.key := by
  obtain ⟨g, name, g', rfl, hg, hne, hns, hk, hg', hg0⟩ := hl
  obtain ⟨h1, h2⟩ := text_visible h
  exact ⟨name, by rw [split1_indent hg, Magres.split1_two hne hns hg' hg0 h1 h2], LineTab.keyName hk⟩

/-- What a line does. -/
theorem loop_line {fl : Numeral → F64} (hfl : ∀ n : Numeral, n.Valid → n.InRange → pyFloat n.text = .ok (fl n)) {l : Str} {i : XcItem}
    (hl : i.Line l) (h : i.Ok) (ls : List Str) (xc params : Dict Key PyVal) :
    xcLoop (l :: ls) xc params = xcLoop ls ((i.weightEntry fl).foldl (fun d kv => Dict.set d kv.1 kv.2) xc)
      ((i.paramEntry fl).foldl (fun d kv => Dict.set d kv.1 kv.2) params) := by
  obtain ⟨name, h1, h2⟩ := line_split hl h
  have hu : unpack2 (Str.split1 l) = .ok (name, i.text) := by rw [h1]; rfl
  rw [xcLoop, xcLine]
  simp only [hu, Castep.Delta.ok_bind, h2]
  cases i with
  | weight k n =>
    obtain ⟨⟨hv, hr⟩, hk⟩ := h
    simp only [List.mem_cons, List.not_mem_nil, or_false, not_or] at hk
    simp only [XcItem.key, XcItem.text, if_neg hk.1, if_neg hk.2.1, hk.2.2.1, hk.2.2.2, or_self, if_false, hfl n hv hr, Castep.Delta.ok_bind]
    rfl
  | length n =>
    simp only [XcItem.key, XcItem.text, if_true, hfl n h.1 h.2, Castep.Delta.ok_bind]
    rfl
  | func t => rfl
  | ppd t =>
    have : decide (Str.upper t = py"ON") = decide (Str.lower t = py"on") := by rw [decide_eq_decide]; exact upper_on t
    exact congrArg (fun b => xcLoop ls xc (Dict.set params (.str (XcItem.ppd t).key) (.bool b))) this
  | divergence t =>
    have : decide (Str.upper t = py"ON") = decide (Str.lower t = py"on") := by rw [decide_eq_decide]; exact upper_on t
    exact congrArg (fun b => xcLoop ls xc (Dict.set params (.str (XcItem.divergence t).key) (.bool b))) this

theorem loop_rows {fl : Numeral → F64} (hfl : ∀ n : Numeral, n.Valid → n.InRange → pyFloat n.text = .ok (fl n)) :
    ∀ {ls : List Str} {is : List XcItem}, List.Forall₂ (fun l i => XcItem.Line l i) ls is → (∀ i ∈ is, i.Ok) → ∀ xc params : Dict Key PyVal,
    xcLoop ls xc params = .ok ((is.flatMap (XcItem.weightEntry fl)).foldl (fun d kv => Dict.set d kv.1 kv.2) xc,
      (is.flatMap (XcItem.paramEntry fl)).foldl (fun d kv => Dict.set d kv.1 kv.2) params) := by
  intro ls is h
  induction h with
  | nil => intro _ _ _; rfl
  | @cons l i ls is h1 _ ih =>
    intro hok xc params
    rw [loop_line hfl h1 (hok i (by simp)), ih (fun q hq => hok q (by simp [hq])), List.flatMap_cons, List.flatMap_cons, List.foldl_append,
      List.foldl_append]

/-- Lines that were kept once are kept again. -/
theorem kept_again {ls kept : List Str} (h : KeptInline cellComments ls kept) : Kept cellComments kept kept := by
  have hp := GenBlock.kept_plain h
  induction h with
  | nil => exact .nil
  | drop _ _ _ ih => exact ih hp
  | @keep l u t ls out hu hb ht _ ih =>
    have hcs : ¬ CommentInitial cellComments t := by
      rintro ⟨u, c, hc, v, e, -⟩
      simp only [cellComments, List.mem_cons, List.not_mem_nil, or_false] at hc
      rcases hc with rfl | rfl
      · exact (hp t (by simp) 35 (by rw [e]; simp)).1 rfl
      · exact (hp t (by simp) 33 (by rw [e]; simp)).2 rfl
    refine .keep ?_ hcs ⟨⟨[], by simp, by intro c hc; cases hc⟩, ht.2⟩ (ih fun x hx => hp x (by simp [hx]))
    intro hbt
    obtain ⟨⟨g, rfl, hg⟩, -⟩ := ht
    refine hb fun c hc => ?_
    rcases List.mem_append.1 hc with hc | hc
    · exact hbt c hc
    · exact hg c hc

theorem slice01 {inner : List Str} {last : Str} : Block.sliceBounds (inner ++ [last]) 0 1 = inner := by
  rw [Block.sliceBounds, if_neg (by decide)]; simp

end XcDef
end Verif
