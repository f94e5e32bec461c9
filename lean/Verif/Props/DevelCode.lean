import Verif.Lemmas.DevelCode
import Verif.Props.GenBlock
import Verif.Props.ColonSep
import Verif.Props.LineTables
/-
C113: `devel_code` blocks.
-/
namespace Verif.Props
open Verif Spec Cell

/-- C113, settings and flags: every setting `key=value` of a `devel_code` block, with comments, blank lines and other words anywhere, is reported under its name with
its value, and every word of letters that is not a setting under its name with `None`, if no setting has that name.  Missing: settings written with a colon, sub-blocks, repeated names, and that there are no other entries (see `C113_violated` and `C113_block_violated`). -/
theorem C113_partial (l : Str) (blk : List Str) (last : Str) (kept : List Str) (wss : List (List DevelWord)) (hl : OpensNamed l (py"devel_code"))
    (hb : ∀ x ∈ blk, ¬ ClosesBlock x) (hlast : ClosesDevel last)
    (hk : KeptInline cellComments blk kept) (hrows : List.Forall₂ DevelWord.Line kept wss) (hok : ∀ w ∈ wss.flatten, w.Ok)
    (ps : List (Str × Str × Str)) (hps : wss.flatten.filterMap DevelWord.pair? = ps.map fun p => (p.1, p.2.1)) (hkey : ∀ p ∈ ps, KeyName p.1 p.2.2)
    (hn : (ps.map fun p => p.2.2).Nodup) :
    ∃ D : Dict Key PyVal, parse_cell_param_file (l :: (blk ++ [last])) = .ok (.list [.dict [(.str (py"devel_code"), .dict D)]]) ∧
      (∀ p ∈ ps, ∃ x, PropValue p.2.1 x ∧ D.get? (.str p.2.2) = some x) ∧
      ∀ w k, .other w ∈ wss.flatten → (∀ c ∈ w, DevelWord.Letter c) → KeyName w k → k ∉ ps.map (fun p => p.2.2) → D.get? (.str k) = some .none := by
  obtain ⟨hcl, hs⟩ := Devel.closing hlast
  have hnk : (ps.map fun p => normalise_key p.1) = ps.map fun p => p.2.2 := List.map_congr_left fun p hp => LineTab.keyName (hkey p hp)
  obtain ⟨D, h1, h2, h3⟩ := Devel.block hrows hok hs (by rw [hps, List.map_map]; show (ps.map fun p => normalise_key p.1).Nodup; rw [hnk]; exact hn) fun v h => prop_value h
  have hp : parserFor (py"devel_code") = parse_devel_code_block := rfl
  refine ⟨D, ?_, fun p hp' => ?_, fun w k hw hl hk' hne => ?_⟩
  · rw [parse_named hl hb hcl, stripped_block hcl hk, hp, h1]
    rfl
  · obtain ⟨x, a, b⟩ := h2 (p.1, p.2.1) (by rw [hps]; exact List.mem_map.2 ⟨p, hp', rfl⟩)
    exact ⟨x, a, by rw [← LineTab.keyName (hkey p hp')]; exact b⟩
  · have e := LineTab.keyName hk'
    rw [← e]
    refine h3 w hw hl fun p hp' h => hne ?_
    rw [← hnk, ← e, h]
    rw [hps] at hp'
    obtain ⟨q, hq, rfl⟩ := List.mem_map.1 hp'
    exact List.mem_map.2 ⟨q, hq, rfl⟩

/-- C113 is false: parts of values are taken for flags.  The sign in the exponent of `tol=1e-5` gives an entry with an empty name, and the extension of a file
name an entry `cell`. -/
theorem C113_violated :
    parse_cell_param_file [py"%BLOCK devel_code\n", py"tol=1e-5\n", py"%ENDBLOCK devel_code\n"] =
      .ok (.list [.dict [(.str (py"devel_code"), .dict [(.str (py"tol"), .float ⟨0x3EE4F8B588E368F1⟩), (.str [], .none)])]]) ∧
    parse_cell_param_file [py"%BLOCK devel_code\n", py"file=start.cell\n", py"%ENDBLOCK devel_code\n"] =
      .ok (.list [.dict [(.str (py"devel_code"), .dict [(.str (py"file"), .str (py"start.cell")), (.str (py"cell"), .none)])]]) := by
  constructor <;> decide +kernel

/-- C113 is false: of a sub-block only the text up to the second colon is read.  Here the settings `T` and `NL` are lost, and the name of the first is reported as
a true value. -/
theorem C113_block_violated :
    parse_cell_param_file [py"%BLOCK devel_code\n", py"PP: T:1 NL:2 :endPP\n", py"%ENDBLOCK devel_code\n"] =
      .ok (.list [.dict [(.str (py"devel_code"), .dict [(.str (py"pp"), .dict [(.str (py"data"), .list [.bool true])])])]]) := by
  decide +kernel

/-! ### Examples -/

def exDevelWords : List (List DevelWord) :=
  [[.other (py"DEBUG"), .setting (py"Max_Steps") (py"20"), .setting (py"mode") (py"fast")], [.setting (py"Tol") (py"1e-5")]]

theorem exDevel_parsed : ∃ D : Dict Key PyVal,
    parse_cell_param_file (py"%BLOCK Devel_Code\n" :: ([py"DEBUG Max_Steps=20 \t mode=fast ! x\n", py"# x\n", py"  Tol=1e-5\n"] ++ [py" %EndBlock \t DEVEL_Code ! end\n"])) =
      .ok (.list [.dict [(.str (py"devel_code"), .dict D)]]) ∧
    (∀ p ∈ [(py"Max_Steps", py"20", py"max_steps"), (py"mode", py"fast", py"mode"), (py"Tol", py"1e-5", py"tol")], ∃ x, PropValue p.2.1 x ∧ D.get? (.str p.2.2) = some x) ∧
    ∀ w k, .other w ∈ exDevelWords.flatten → (∀ c ∈ w, DevelWord.Letter c) → KeyName w k → k ∉ [(py"Max_Steps", py"20", py"max_steps"), (py"mode", py"fast", py"mode"), (py"Tol", py"1e-5", py"tol")].map (fun p => p.2.2) → D.get? (.str k) = some .none := by
  refine C113_partial _ _ _ [py"DEBUG Max_Steps=20 \t mode=fast", py"  Tol=1e-5"] exDevelWords
    (opens_example _ _ (py"%BLOCK ") [] (py"Devel_Code") (py"\n") (by decide) (by decide) (by decide) (by decide) (by decide) (by decide) (by decide)) ?_
    ⟨py" %EndBlock \t DEVEL_Code ", py" ", py"%EndBlock", py" \t ", py"DEVEL_Code", py" ", uncommented_takeWhile _, by decide +kernel, by decide +kernel, by decide +kernel, by decide,
      by decide +kernel, by decide +kernel, by decide +kernel⟩
    ((C20_inline _ _ (by decide) _).1 (by decide +kernel)) (.cons ⟨(fields_iff _ _).2 (by decide +kernel), by decide +kernel⟩ (.cons ⟨(fields_iff _ _).2 (by decide +kernel), by decide +kernel⟩ .nil))
    ?_ _ (by rfl) ?_ (by decide)
  · intro x hx
    rw [← Cell.isEnd_iff]
    revert x
    decide +kernel
  · simp only [exDevelWords, List.flatten_cons, List.flatten_nil, List.append_nil, List.cons_append, List.nil_append, List.forall_mem_cons, DevelWord.Ok]
    refine ⟨by decide +kernel, ⟨by decide +kernel, by decide +kernel, .inl ⟨exInt (py"20"), by decide +kernel, by decide +kernel, by decide +kernel⟩⟩,
      ⟨by decide +kernel, by decide +kernel, .inr ⟨by decide, by decide +kernel, by decide +kernel⟩⟩, ⟨by decide +kernel, by decide +kernel, .inl ⟨⟨none, py"1", none, some (false, some true, py"5")⟩, by decide +kernel, by decide +kernel, by decide +kernel⟩⟩, by simp⟩
  · simp only [List.forall_mem_cons]
    refine ⟨keyName_of (by decide +kernel), keyName_of (by decide +kernel), keyName_of (by decide +kernel), by simp⟩

/-- The hypotheses of `C113_partial` hold for a block with three settings and the flag `DEBUG`. -/
example : ∃ D : Dict Key PyVal,
    parse_cell_param_file (py"%BLOCK Devel_Code\n" :: ([py"DEBUG Max_Steps=20 \t mode=fast ! x\n", py"# x\n", py"  Tol=1e-5\n"] ++ [py" %EndBlock \t DEVEL_Code ! end\n"])) =
      .ok (.list [.dict [(.str (py"devel_code"), .dict D)]]) ∧ (∃ x, PropValue (py"1e-5") x ∧ D.get? (.str (py"tol")) = some x) ∧ D.get? (.str (py"debug")) = some .none := by
  obtain ⟨D, h1, h2, h3⟩ := exDevel_parsed
  exact ⟨D, h1, h2 (py"Tol", py"1e-5", py"tol") (by decide), h3 (py"DEBUG") (py"debug") (List.mem_cons_self ..) (by decide) (keyName_of (by decide +kernel)) (by decide)⟩

end Verif.Props
