import Verif.Model.Cli
import Verif.Lemmas.Path
import Verif.Lemmas.GenFiles
import Verif.Spec.Data
/-
C50, C53, C58: parser selection, dumpers, YAML output.
-/
namespace Verif.Props
open Verif Spec Cli

/-! ### C50 -/

theorem lookup_known (l : List (Str × Str)) (e : Str) :
    List.lookup e (l.map fun x => (x.1, Fn.known x.2)) = (List.lookup e l).map Fn.known := by
  induction l with
  | nil => rfl
  | cons a l ih =>
    rw [List.map_cons, List.lookup_cons, List.lookup_cons, ih]
    cases e == a.1 <;> rfl

theorem PARSERS_spec : PARSERS = textFormats.map fun x => (x.1, Fn.known x.2) := by decide +kernel
theorem ALL_PARSERS_spec : ALL_PARSERS = (textFormats ++ binFormats).map fun x => (x.1, Fn.known x.2) := by decide +kernel
theorem ALL_NAMES_spec : ALL_NAMES = knownExts := by decide +kernel

theorem plain_result {parse : Fn → Bool → Input → PyM PyVal} {i : Input} {arg : ParserArg} {fmt : Str} {f : Fn}
    (hf : fmt ∉ [py"json", py"yaml", py"ruamel"]) (h : chooseParser i.toPath arg = .ok f) :
    parse_single parse i arg fmt false = parse f false i.toPath := by
  simp only [List.mem_cons, List.not_mem_nil, or_false, not_or] at hf
  rw [parse_single, h]
  show (parse f (f == Fn.known (py"parse_castep_file") && false) i.toPath >>= _) = _
  rw [Bool.and_false]
  cases hp : parse f false i.toPath with
  | error e => rfl
  | ok v =>
    show (forFormat fmt false v >>= fun d => forTesting false d) = _
    rw [forFormat, if_neg (by simp [hf.1]), if_neg (by simp [hf.2.1, hf.2.2])]
    rfl

/-- C50.  A parser given as a function is the one used. -/
theorem C50_function (parse : Fn → Bool → Input → PyM PyVal) (i : Input) (f : Fn) (fmt : Str)
    (hf : fmt ∉ [py"json", py"yaml", py"ruamel"]) :
    parse_single parse i (.fn f) fmt false = parse f false i.toPath := plain_result hf rfl

/-- C50.  A parser given by the name of a text format is the one used, whatever the extension of the file.
(For the binary formats and unknown names this fails, see `C50_name_ignored`.) -/
theorem C50_name_partial (parse : Fn → Bool → Input → PyM PyVal) (i : Input) (s g : Str) (fmt : Str)
    (hs : (s, g) ∈ textFormats) (hf : fmt ∉ [py"json", py"yaml", py"ruamel"]) :
    parse_single parse i (.name s) fmt false = parse (.known g) false i.toPath := by
  apply plain_result hf
  have : List.lookup s textFormats = some g :=
    (by decide +kernel : ∀ x ∈ textFormats, List.lookup x.1 textFormats = some x.2) _ hs
  have h2 : ParserArg.resolve (.name s) = some (.known g) := by
    show List.lookup s PARSERS = _
    rw [PARSERS_spec, lookup_known, this]; rfl
  rw [chooseParser.eq_def, h2]

/-- C50 fails for binary formats and unknown names: the name is ignored and the extension decides. -/
theorem C50_name_ignored (parse : Fn → Bool → Input → PyM PyVal) :
    parse_single parse (.text (py"x.castep")) (.name (py"cst_esp")) (py"print") false =
      parse (.known (py"parse_castep_file")) false (.path ⟨[], [py"x.castep"]⟩) ∧
    parse_single parse (.text (py"x.castep")) (.name (py"nonsense")) (py"print") false =
      parse (.known (py"parse_castep_file")) false (.path ⟨[], [py"x.castep"]⟩) := by
  have h : Input.toPath (.text (py"x.castep")) = .path ⟨[], [py"x.castep"]⟩ := by decide +kernel
  constructor <;>
  · rw [plain_result (f := .known (py"parse_castep_file")) (by decide) (by decide +kernel), h]

theorem stripDots_ext {e : Str} (h1 : e ≠ []) (h2 : c!"." ∉ e) : stripDots (py"." ++ e) = e := by
  have key : ∀ l : Str, l ≠ [] → c!"." ∉ l → l.dropWhile (· == c!".") = l := by
    intro l hl hd
    cases l with
    | nil => exact absurd rfl hl
    | cons a l =>
      rw [List.dropWhile_cons, if_neg]
      simp only [beq_iff_eq]
      rintro rfl; exact hd (by simp)
  rw [stripDots, List.singleton_append, List.dropWhile_cons, if_pos (by decide), key e h1 h2, key _ (by simpa using h1) (by simpa using h2),
    List.reverse_reverse]

theorem choose_path (p : Path) : chooseParser (.path p) .none = match List.lookup (stripDots p.suffix) ALL_PARSERS with
    | some f => .ok f
    | none => .error .valueError := rfl

theorem suffix_of {root : Str} {dirs : List Str} {n stem ext s : Str} (hp : PathText root (dirs ++ [n]) s)
    (hn : NameExt n stem ext) : (Path.ofStr s).suffix = py"." ++ ext := by
  rw [ofStr_pathText hp, Path.suffix, Path.name]
  simp only [List.getLastD_concat]
  rw [splitName_ext hn]

/-- C50.  Without a parser the extension decides: for a path `<directories>/<stem>.<ext>` with a known extension the
documented parser is used, -/
theorem C50_extension (parse : Fn → Bool → Input → PyM PyVal) (root : Str) (dirs : List Str) (n stem ext g s fmt : Str)
    (hp : PathText root (dirs ++ [n]) s) (hn : NameExt n stem ext) (he : (ext, g) ∈ textFormats ++ binFormats)
    (hf : fmt ∉ [py"json", py"yaml", py"ruamel"]) :
    parse_single parse (.text s) .none fmt false = parse (.known g) false (.path ⟨root, dirs ++ [n]⟩) := by
  rw [show Input.path ⟨root, dirs ++ [n]⟩ = Input.toPath (.text s) by rw [Input.toPath, ofStr_pathText hp]]
  apply plain_result hf
  have : List.lookup ext (textFormats ++ binFormats) = some g :=
    (by decide +kernel : ∀ x ∈ textFormats ++ binFormats, List.lookup x.1 (textFormats ++ binFormats) = some x.2) _ he
  rw [Input.toPath, choose_path, suffix_of hp hn, stripDots_ext hn.2.2.1 hn.2.2.2, ALL_PARSERS_spec, lookup_known, this]; rfl

/-- and with any other extension `ValueError` is raised, whatever the output format; -/
theorem C50_unknown (parse : Fn → Bool → Input → PyM PyVal) (root : Str) (dirs : List Str) (n stem ext s fmt : Str) (testing : Bool)
    (hp : PathText root (dirs ++ [n]) s) (hn : NameExt n stem ext) (he : ext ∉ knownExts) :
    parse_single parse (.text s) .none fmt testing = .error .valueError := by
  have : List.lookup ext (textFormats ++ binFormats) = none := by
    rw [List.lookup_eq_none_iff]
    intro x hx
    simp only [bne_iff_ne, ne_eq]
    rintro rfl
    exact he (List.mem_map.2 ⟨x, hx, rfl⟩)
  rw [parse_single, Input.toPath, choose_path, suffix_of hp hn, stripDots_ext hn.2.2.1 hn.2.2.2,
    ALL_PARSERS_spec, lookup_known, this]; rfl

/-- likewise without an extension, -/
theorem C50_no_extension (parse : Fn → Bool → Input → PyM PyVal) (root : Str) (dirs : List Str) (n s fmt : Str) (testing : Bool)
    (hp : PathText root (dirs ++ [n]) s) (hn : c!"." ∉ n) :
    parse_single parse (.text s) .none fmt testing = .error .valueError := by
  rw [parse_single, Input.toPath, choose_path, ofStr_pathText hp, Path.suffix, Path.name]
  simp only [List.getLastD_concat]
  rw [splitName_plain _ hn]
  rfl

/-- and for a file handle. -/
theorem C50_handle (parse : Fn → Bool → Input → PyM PyVal) (k : Nat) (fmt : Str) (testing : Bool) :
    parse_single parse (.handle k) .none fmt testing = .error .valueError := rfl

/-- The hypotheses are met: `/data/run.2/a.b.phonon_dos`, `run/x.txt`, `run`. -/
example : PathText (py"/") ([py"data", py"run.2"] ++ [py"a.b.phonon_dos"]) (py"/data/run.2/a.b.phonon_dos") ∧
    NameExt (py"a.b.phonon_dos") (py"a.b") (py"phonon_dos") ∧
    (py"phonon_dos", py"parse_phonon_dos_file") ∈ textFormats ++ binFormats ∧ py"print" ∉ [py"json", py"yaml", py"ruamel"] ∧
    PathText [] ([py"run"] ++ [py"x.txt"]) (py"run/x.txt") ∧ NameExt (py"x.txt") (py"x") (py"txt") ∧ py"txt" ∉ knownExts ∧
    PathText [] ([] ++ [py"run"]) (py"run") ∧ c!"." ∉ py"run" := by
  unfold PathText NameExt
  exact ⟨by decide +kernel, by decide +kernel, by decide +kernel, by decide +kernel, by decide +kernel, by decide +kernel,
    by decide +kernel, by decide +kernel, by decide +kernel⟩

/-! ### C53 -/

/-- C53.  The five formats have their dumpers, whichever YAML package is installed, -/
theorem C53_named (y : Option Str) :
    get_dumpers y (py"json") = .ok .json ∧ get_dumpers y (py"ruamel") = .ok .ruamel ∧
    get_dumpers y (py"pyyaml") = .ok .pyyaml ∧ get_dumpers y (py"pprint") = .ok .pprint ∧
    get_dumpers y (py"print") = .ok .print := ⟨rfl, rfl, rfl, rfl, rfl⟩

/-- `yaml` is resolved to an installed package, `ruamel` if there is a choice, and is an `ImportError` if there is
none, -/
theorem C53_yaml (hasYaml hasRuamel : Bool) :
    get_dumpers (YAML_TYPE hasYaml hasRuamel) (py"yaml") =
      (if hasRuamel then .ok .ruamel else if hasYaml then .ok .pyyaml else .error .importError) := by
  cases hasYaml <;> cases hasRuamel <;> rfl

/-- and any other name is a `ValueError`. -/
theorem C53_unknown (y : Option Str) (fmt : Str)
    (h : fmt ∉ [py"json", py"ruamel", py"pyyaml", py"pprint", py"print", py"yaml"]) :
    get_dumpers y fmt = .error .valueError := by
  simp only [List.mem_cons, List.not_mem_nil, or_false, not_or] at h
  have : List.lookup fmt SUPPORTED_FORMATS = none := by
    rw [List.lookup_eq_none_iff]
    intro x hx
    simp only [SUPPORTED_FORMATS, List.mem_cons, List.not_mem_nil, or_false] at hx
    simp only [bne_iff_ne]
    rcases hx with rfl | rfl | rfl | rfl | rfl
    · exact h.1
    · exact h.2.1
    · exact h.2.2.1
    · exact h.2.2.2.1
    · exact h.2.2.2.2.1
  rw [get_dumpers, yamlName.eq_def, if_neg h.2.2.2.2.2]
  show (match List.lookup fmt SUPPORTED_FORMATS with
    | some d => pure d
    | none => (.error .valueError : PyM Dumper)) = _
  rw [this]

/-- `toml`, say, is such a name. -/
example : py"toml" ∉ [py"json", py"ruamel", py"pyyaml", py"pprint", py"print", py"yaml"] := by decide

/-! ### C58 -/

mutual
theorem yaml_spec : ∀ (v w : PyVal), normalise yamlMapping v = .ok w → NoTuple w ∧ scalars w = scalars v
  | .tuple l, w, h => by
    rw [normalise] at h
    obtain ⟨l', h1, h2⟩ := Gen.bind_ok h
    cases h2
    have := yaml_specL l l' h1
    exact ⟨by simpa only [NoTuple] using this.1, by simpa only [scalars] using this.2⟩
  | .list l, w, h => by
    rw [normalise] at h
    obtain ⟨l', h1, h2⟩ := Gen.bind_ok h
    cases h2
    have := yaml_specL l l' h1
    exact ⟨by simpa only [NoTuple] using this.1, by simpa only [scalars] using this.2⟩
  | .dict d, w, h => by
    rw [normalise] at h
    obtain ⟨l', h1, h2⟩ := Gen.bind_ok h
    cases h2
    have := yaml_specD d l' h1
    exact ⟨by simpa only [NoTuple] using this.1, by simpa only [scalars] using this.2⟩
  | .none, w, h => by cases h; exact ⟨by simp only [NoTuple], rfl⟩
  | .bool _, w, h => by cases h; exact ⟨by simp only [NoTuple], rfl⟩
  | .int _, w, h => by cases h; exact ⟨by simp only [NoTuple], rfl⟩
  | .float _, w, h => by cases h; exact ⟨by simp only [NoTuple], rfl⟩
  | .complex _ _, w, h => by cases h; exact ⟨by simp only [NoTuple], rfl⟩
  | .str _, w, h => by cases h; exact ⟨by simp only [NoTuple], rfl⟩
theorem yaml_specL : ∀ (l w : List PyVal), normaliseL yamlMapping l = .ok w → NoTupleL w ∧ scalarsL w = scalarsL l
  | [], w, h => by cases h; exact ⟨by simp only [NoTupleL], rfl⟩
  | v :: l, w, h => by
    rw [normaliseL] at h
    obtain ⟨v', h1, h⟩ := Gen.bind_ok h
    obtain ⟨l', h2, h⟩ := Gen.bind_ok h
    cases h
    have a := yaml_spec v v' h1
    have b := yaml_specL l l' h2
    exact ⟨by simp only [NoTupleL]; exact ⟨a.1, b.1⟩, by simp only [scalarsL, a.2, b.2]⟩
theorem yaml_specD : ∀ (l w : List (Key × PyVal)), normaliseD yamlMapping l = .ok w → NoTupleD w ∧ scalarsD w = scalarsD l
  | [], w, h => by cases h; exact ⟨by simp only [NoTupleD], rfl⟩
  | (k, v) :: l, w, h => by
    rw [normaliseD] at h
    obtain ⟨v', h1, h⟩ := Gen.bind_ok h
    obtain ⟨l', h2, h⟩ := Gen.bind_ok h
    cases h
    have a := yaml_spec v v' h1
    have b := yaml_specD l l' h2
    exact ⟨by simp only [NoTupleD]; exact ⟨a.1, b.1⟩, by simp only [scalarsD, a.2, b.2]⟩
end

theorem format_result {parse : Fn → Bool → Input → PyM PyVal} {i : Input} {f : Fn} {fmt : Str} {w : PyVal}
    (h : parse_single parse i (.fn f) fmt false = .ok w) :
    ∃ v, parse f false i.toPath = .ok v ∧ forFormat fmt false v = .ok w := by
  rw [parse_single] at h
  obtain ⟨f', h1, h⟩ := Gen.bind_ok h
  obtain ⟨v, h2, h⟩ := Gen.bind_ok h
  obtain ⟨v', h3, h4⟩ := Gen.bind_ok h
  cases h4
  cases h1
  rw [Bool.and_false] at h2
  exact ⟨v, h2, h3⟩

/-- C58.  For the formats `yaml` and `ruamel` the data returned hold no tuple at any depth, and the scalars the
parser returned in the same order. -/
theorem C58_yaml_partial (parse : Fn → Bool → Input → PyM PyVal) (i : Input) (f : Fn) (fmt : Str) (w : PyVal)
    (hf : fmt = py"yaml" ∨ fmt = py"ruamel") (h : parse_single parse i (.fn f) fmt false = .ok w) :
    NoTuple w ∧ ∃ v, parse f false i.toPath = .ok v ∧ scalars w = scalars v := by
  obtain ⟨v, h1, h2⟩ := format_result h
  rw [forFormat, if_neg (by rcases hf with rfl | rfl <;> decide), if_pos (by rcases hf with rfl | rfl <;> decide)] at h2
  have := yaml_spec v w h2
  exact ⟨this.1, v, h1, this.2⟩

/-- C58 fails for the format `pyyaml`: tuples are left in the data. -/
theorem C58_pyyaml (parse : Fn → Bool → Input → PyM PyVal) (i : Input) (f : Fn) (l : List PyVal)
    (h : parse f false i.toPath = .ok (.tuple l)) :
    parse_single parse i (.fn f) (py"pyyaml") false = .ok (.tuple l) ∧ ¬ NoTuple (.tuple l) := by
  rw [C50_function parse i f _ (by decide)]
  exact ⟨h, by simp [NoTuple]⟩

/-- Such a parser. -/
example : ∃ (parse : Fn → Bool → Input → PyM PyVal) (i : Input) (f : Fn),
    parse f false i.toPath = .ok (.tuple [.int 1]) ∧
    parse_single parse i (.fn f) (py"yaml") false = .ok (.list [.int 1]) :=
  ⟨fun _ _ _ => .ok (.tuple [.int 1]), .handle 0, .custom 0, rfl, by decide +kernel⟩

end Verif.Props
