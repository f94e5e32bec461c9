import Verif.Py.Regex
/-
castep_outputs/utilities/castep_res.py: the regular expressions, as text, assembled exactly as the
module assembles them, and compiled by the model of `re.compile`.
Names ending in `_s` are pattern texts, the others compiled patterns.
-/
namespace Verif.Res

/-- `FNUMBER_RE`, castep_res.py:190. -/
def FNUMBER_s : Str := py r"(?:[+-]?(?:\d*\.\d+|\d+\.\d*))"
/-- `INTNUMBER_RE`, castep_res.py:195. -/
def INTNUMBER_s : Str := py r"(?:[+-]?(?<!\.)\d+(?!\.))"
/-- `FINTNUMBER_RE`, castep_res.py:197. -/
def FINTNUMBER_s : Str := py"(?:" ++ FNUMBER_s ++ py"|" ++ INTNUMBER_s ++ py")"
/-- `EXPNUMBER_RE`, castep_res.py:202. -/
def EXPNUMBER_s : Str :=
  py"(?:(?:" ++ FNUMBER_s ++ py"|" ++ INTNUMBER_s ++ py r")[Ee][+-]?\d{1,3})"
/-- `EXPFNUMBER_RE`, castep_res.py:207. -/
def EXPFNUMBER_s : Str := py"(?:" ++ EXPNUMBER_s ++ py"|" ++ FNUMBER_s ++ py")"
/-- `RATIONAL_RE`, castep_res.py:212. -/
def RATIONAL_s : Str := py r"\b" ++ INTNUMBER_s ++ py"/" ++ INTNUMBER_s ++ py r"\b"
/-- `NUMBER_RE.pattern`, castep_res.py:217. -/
def NUMBER_s : Str :=
  py"(?:" ++ EXPNUMBER_s ++ py"|" ++ FNUMBER_s ++ py"|" ++ INTNUMBER_s ++ py")"
/-- `NUMBER_RE`, castep_res.py:217. -/
def NUMBER_RE : Pat := rx NUMBER_s
/-- `FLOAT_RAT_RE.pattern`, castep_res.py:222. -/
def FLOAT_RAT_s : Str :=
  py"(?:" ++ RATIONAL_s ++ py"|" ++ EXPFNUMBER_s ++ py"|" ++ INTNUMBER_s ++ py")"
/-- `FLOAT_RAT_RE`, castep_res.py:222. -/
def FLOAT_RAT_RE : Pat := rx FLOAT_RAT_s

/-- `get_numbers`, castep_res.py:15-38. -/
def get_numbers (line : Str) : List Str := NUMBER_RE.findall line

/-- The default separator `\s+?` of `labelled_floats`. -/
def sepDefault : Str := py r"\s+?"

/-- Loop of `labelled_floats`, castep_res.py:85-90.  A count is given as the text it is formatted to;
`none` is `None`. -/
def labelledAux (sep suffix : Str) : List Str → List (Option Str) → Str
  | [], _ => []
  | label :: labels, counts =>
    (match counts.head?.join with
      | some cnt => py"(?:(?P<" ++ label ++ py">(?:" ++ sep ++ NUMBER_s ++ suffix ++ py"){" ++ cnt ++
          py"}))"
      | none => py"(?:" ++ sep ++ py"(?P<" ++ label ++ py">" ++ NUMBER_s ++ py")" ++ suffix ++ py")")
    ++ labelledAux sep suffix labels counts.tail

/-- `labelled_floats`, castep_res.py:85-90.  (The `NotImplementedError` for suffix with counts and the
case of more counts than labels never occur in the repository.) -/
def labelled_floats (labels : List Str) (counts : List (Option Str) := []) (sep : Str := sepDefault)
    (suffix : Str := []) : Str := labelledAux sep suffix labels counts

/-- `gen_table_re`, castep_res.py:95-151. -/
def gen_table_re (content : Str) (border : Str := py r"\s*") (pre post : Str := [])
    (whole_line : Bool := true) : Str :=
  let tab := if content.isEmpty then py r"\s*" ++ border ++ py r"\s*"
    else py r"\s*" ++ border ++ py r"\s*" ++ content ++ py r"\s*" ++ border ++ py r"\s*"
  let tab := py r"\s*" ++ pre ++ tab ++ post ++ py r"\s*"
  if whole_line then py"^" ++ tab ++ py"$" else tab

/-- `FST_D`, constants.py:9. -/
def FST_D : List Str := [py"x", py"y", py"z"]
/-- `SND_D`, constants.py:12. -/
def SND_D : List Str := [py"xx", py"yy", py"zz", py"yz", py"xz", py"xy"]
/-- `SHELLS`, constants.py:6. -/
def SHELLS : List Str := [py"s", py"p", py"d", py"f"]
/-- `MINIMISERS`, constants.py:15. -/
def MINIMISERS : List Str := [py"bfgs", py"lbfgs", py"fire", py"tpsd", py"dmd", py"di"]

/-- `THREEVEC_RE`, castep_res.py:227. -/
def THREEVEC_s : Str := labelled_floats [py"val"] [some (py"3")]
/-- `SPECIES_RE`, castep_res.py:233. -/
def SPECIES_s : Str := py r"[A-Z][a-z]{0,2}"
/-- `ATOM_NAME_RE`, castep_res.py:237. -/
def ATOM_NAME_s : Str := py r"\b" ++ SPECIES_s ++ py r"(?::\w+)?\b(?:\s*\[[^\]]+\])?"
/-- `ATOM_NAME_GRP_RE`, castep_res.py:241-243. -/
def ATOM_NAME_GRP_RE : Pat :=
  rx (py"(?P<species>" ++ SPECIES_s ++ py r")(?::(?P<tag>\w+))?\b(?:\s*\[(?P<label>[^\]]*)\])?")
/-- `SHELL_RE`, castep_res.py:251. -/
def SHELL_s : Str := py r"\d[" ++ SHELLS.flatten ++ py r"]\d{0,2}"
/-- `TAG_RE.pattern`, castep_res.py:256. -/
def TAG_s : Str := py r"<--\s*(?P<tag>\w+)"
/-- `TAG_RE` -/
def TAG_RE : Pat := rx TAG_s
/-- `EMPTY`, castep_res.py:261. -/
def EMPTY_s : Str := py r"^\s*$"
/-- `ATOM_RE`, castep_res.py:266. -/
def ATOM_s : Str := py"(?P<spec>" ++ ATOM_NAME_s ++ py r")\s+(?P<index>\d+)"
/-- `ATOMIC_DATA_3VEC.pattern`, castep_res.py:273. -/
def ATOMIC_DATA_3VEC_s : Str := ATOM_s ++ labelled_floats FST_D
/-- `ATOMIC_DATA_3VEC` -/
def ATOMIC_DATA_3VEC : Pat := rx ATOMIC_DATA_3VEC_s
/-- `ATOMIC_DATA_FORCE`, castep_res.py:274. -/
def ATOMIC_DATA_FORCE : Pat :=
  rx (ATOM_s ++ labelled_floats FST_D (suffix := py r"(?:\s*\([^)]+\))?"))
/-- `ATOMIC_DATA_TAG`, castep_res.py:275. -/
def ATOMIC_DATA_TAG : Pat := rx (py r"\s*" ++ ATOMIC_DATA_3VEC_s ++ py r"\s*" ++ TAG_s)
/-- `LABELLED_POS_RE`, castep_res.py:278. -/
def LABELLED_POS_RE : Pat := rx (ATOMIC_DATA_3VEC_s ++ py r"\s{5}(?P<label>\S{0,8})")
/-- `COLON_SEP_RE`, castep_res.py:281. -/
def COLON_SEP_RE : Pat := rx (py r"\b(?P<key>\S+)\s*:\s*(?P<val>\S+)\b")

/-- `MIXTURE_LINE_1_RE`, castep_res.py:284-291. -/
def MIXTURE_LINE_1_RE : Pat :=
  rx (verbose := true) (py r"
(?P<index>\d+)\s+
" ++ labelled_floats FST_D ++ py r"\s+
(?P<spec>" ++ ATOM_NAME_s ++ py r")\s+
" ++ labelled_floats [py"weight"])
/-- `MIXTURE_LINE_2_RE`, castep_res.py:292. -/
def MIXTURE_LINE_2_RE : Pat :=
  rx (py"(?P<spec>" ++ ATOM_NAME_s ++ py r")\s+" ++ labelled_floats [py"weight"])
/-- `SCF_LOOP_RE`, castep_res.py:296-300. -/
def SCF_LOOP_RE : Pat :=
  rx (py r"\s*(?:Initial|\d+)\s*" ++ labelled_floats [py"energy", py"fermi_energy", py"energy_gain"] ++
    py r"?\s*" ++ labelled_floats [py"time"])
/-- `INTEGRATED_SPIN_DENSITY_RE`, castep_res.py:303-307. -/
def INTEGRATED_SPIN_DENSITY_RE : Pat :=
  rx (py r"(?P<vec>2\*)?Integrated \|?Spin Density\|?[^=]+=\s*" ++
    py"(?P<val>" ++ EXPFNUMBER_s ++ py r"\s*" ++
    py"(?(vec)(?:" ++ EXPFNUMBER_s ++ py r"\s*){2}))")
/-- `PS_SHELL_RE`, castep_res.py:310-312. -/
def PS_SHELL_RE : Pat :=
  rx (py r"\s*Pseudo atomic calculation performed for (?P<spec>" ++ SPECIES_s ++ py r")(\s+" ++
    SHELL_s ++ py")+")
/-- `FP_NUM_RE`, castep_res.py:317. -/
def FP_NUM_s : Str := py r"(?:\d+\.?\d*|\d*\.\d+)"
/-- `PSPOT_SHELL_RE`, castep_res.py:319. -/
def PSPOT_SHELL_s : Str := py"(?:" ++ SHELL_s ++ FNUMBER_s ++ py"?)"
/-- `PROJ_TYPES`, castep_res.py:320. -/
def PROJ_TYPES : Str := py"UNGHLP"
/-- `PSPOT_PROJ_RE`, castep_res.py:321-329. -/
def PSPOT_PROJ_RE : Pat :=
  rx (verbose := true) (py"
    (?P<type>[" ++ PROJ_TYPES ++ py"])
    (?P<beta_rc> " ++ FP_NUM_s ++ py")?
    (?:(?:=[+-]?|[+-]) (?P<beta_e> " ++ FP_NUM_s ++ py"))?
    (?:@(?P<beta_delta>" ++ FP_NUM_s ++ py"))?
    ")
/-- `PSPOT_REFERENCE_STRUC_RE`, castep_res.py:331-339. -/
def PSPOT_REFERENCE_STRUC_RE : Pat :=
  rx (verbose := true) (py r"
    ^\s*\|\s*
    (?P<orb>" ++ SHELL_s ++ py r"(?:/\d+)?)\s*
    " ++ labelled_floats [py"occupation", py"energy"] ++ py r"
    \s*\|\s*$
    ")
/-- `PSPOT_DEF_RE`, castep_res.py:341-353. -/
def PSPOT_DEF_RE : Pat :=
  rx (verbose := true) (py r"
    ^\s*\|\s*
    (?P<beta>\d+|loc)\s*
    (?P<l>\d+)\s*
    (?P<j>\d+)?\s*
    " ++ labelled_floats [py"e", py"Rc"] ++ py r"\s*
    (?P<scheme>\w+)\s*
    (?P<norm>\d+)
    \s*\|\s*$
    ")
/-- `PSPOT_INFO_RE.pattern`, castep_res.py:356-368. -/
def PSPOT_INFO_s : Str := py"^
    -?" ++ labelled_floats [py"local_energy"] (suffix := py"=") ++ py r"?
    -?(?P<local_channel>\d+)-?\|
    " ++ labelled_floats [py"core_radius"] (sep := []) ++ py r"\|
    (?:" ++ labelled_floats [py"beta_radius"] (sep := []) ++ py r"\|)?
    (?(beta_radius)" ++ labelled_floats [py"r_inner"] (sep := []) ++ py r"\|)
    (?:" ++ labelled_floats [py"coarse"] (sep := []) ++ py r"\|)
    (?:" ++ labelled_floats [py"medium"] (sep := []) ++ py r"\|)
    (?:" ++ labelled_floats [py"fine"] (sep := []) ++ py r"\|)
"
/-- `PSPOT_INFO_RE` -/
def PSPOT_INFO_RE : Pat := rx (verbose := true) PSPOT_INFO_s
/-- `PSPOT_FULL_LAZY`, castep_res.py:373. -/
def PSPOT_FULL_LAZY : Pat := rx (verbose := true) (PSPOT_INFO_s ++ py r"\S+")
/-- `PSPOT_TEST_RE`, castep_res.py:375. -/
def PSPOT_TEST_RE : Pat :=
  rx (py r"(?:\[((?:" ++ PSPOT_SHELL_s ++ py"(?:," ++ PSPOT_SHELL_s ++ py r")*)?)\])")
/-- `PSPOT_ADJ_RE`, castep_res.py:376. -/
def PSPOT_ADJ_RE : Pat :=
  rx (py r"(?:\{(" ++ PSPOT_SHELL_s ++ py"(?:," ++ PSPOT_SHELL_s ++ py r")*)\})")
/-- `PSPOT_FLAG_RE`, castep_res.py:377. -/
def PSPOT_FLAG_RE : Pat := rx (py r"(?:\(([^)]+)\))")
/-- `FORCES_BLOCK_RE`, castep_res.py:380. -/
def FORCES_BLOCK_RE : Pat := rx (ci := true) (gen_table_re (py"([a-zA-Z ]*)Forces") (py r"\*+"))
/-- `STRESSES_BLOCK_RE`, castep_res.py:382. -/
def STRESSES_BLOCK_RE : Pat :=
  rx (ci := true) (gen_table_re (py"([a-zA-Z ]*)Stress Tensor") (py r"\*+"))
/-- `BOND_RE`, castep_res.py:385-393. -/
def BOND_RE : Pat :=
  rx (verbose := true) (py r"\s*
    (?P<spec1>" ++ ATOM_NAME_s ++ py r")\s*(?P<ind1>\d+)\s*
    --\s*
    (?P<spec2>" ++ ATOM_NAME_s ++ py r")\s*(?P<ind2>\d+)\s*
    " ++ labelled_floats [py"population", py"spin", py"length"] [none, some (py"0,1"), none] ++ py"
    ")
/-- `PAIR_POT_RES["two_body_one_spec"]`, castep_res.py:397-399. -/
def TWO_BODY_ONE_SPEC : Pat :=
  rx (py r"^(?P<tag>\w+)?\s*\*\s*(?P<spec>" ++ ATOM_NAME_s ++ py r")\s*\*\s*$")
/-- `PAIR_POT_RES["two_body_spec"]`, castep_res.py:400-403. -/
def TWO_BODY_SPEC : Pat :=
  rx (py"(?P<spec1>" ++ ATOM_NAME_s ++ py r")\s*-\s*" ++ py"(?P<spec2>" ++ ATOM_NAME_s ++ py")")
/-- `PAIR_POT_RES["two_body_val"]`, castep_res.py:404-413. -/
def TWO_BODY_VAL : Pat :=
  rx (verbose := true) (py r"
            (?P<tag>\w+)?\s*\*\s*
            (?P<label>\w+)\s*
            " ++ labelled_floats [py"params"] [some (py"1,4")] ++ py r"\s*
            [\w^/*]+\s* \* \s*
            <--\s*(?P<type>\w+)
            ")
/-- `PAIR_POT_RES["three_body_spec"]`, castep_res.py:414-420. -/
def THREE_BODY_SPEC : Pat :=
  rx (verbose := true) (py r"
        ^(?P<tag>\w+)?\s*\*\s*
        (?P<spec>(?:" ++ ATOM_NAME_s ++ py r"\s*){3})
        \s*\*\s*$")
/-- `PAIR_POT_RES["three_body_val"]`, castep_res.py:421-430. -/
def THREE_BODY_VAL : Pat :=
  rx (verbose := true) (py r"
        ^(?P<tag>\w+)?\s*\*\s*
        (?P<label>\w+)\s*
        " ++ labelled_floats [py"params"] ++ py r"\s*
        [\w^/*]+\s* \* \s*
        <--\s*(?P<type>\w+)
        ")
/-- `ORBITAL_POPN_RE`, castep_res.py:434-437. -/
def ORBITAL_POPN_RE : Pat :=
  rx (py r"\s*" ++ ATOM_s ++ py r"\s*(?P<orb>[SPDF][xyz]?)" ++
    py r"\s*" ++ labelled_floats [py"charge"])
/-- `PHONON_RE`, castep_res.py:440-449. -/
def PHONON_RE : Pat :=
  rx (verbose := true) (py r"
    \s+\+\s+
    q-pt=\s*" ++ INTNUMBER_s ++ py r"\s+
    \(" ++ labelled_floats [py"qpt"] [some (py"3")] ++ py r"\)
    \s+
    (" ++ FNUMBER_s ++ py r")\s+\+
    ")
/-- `PROCESS_PHONON_RE`, castep_res.py:451-461. -/
def PROCESS_PHONON_RE : Pat :=
  rx (verbose := true) (py r"\s+\+\s+
    (?P<N>\d+)\s+
    (?P<frequency>" ++ FNUMBER_s ++ py r")\s*
    (?P<irrep>[a-zA-V])?\s*
    (?P<ir_intensity>" ++ FNUMBER_s ++ py r")?\s*
    (?P<ir_active>[YN])?\s*
    (?P<raman_intensity>" ++ FNUMBER_s ++ py r")?\s*
    (?P<raman_active>[YN])?\s*\+")
/-- `TDDFT_RE`, castep_res.py:463-470. -/
def TDDFT_RE : Pat :=
  rx (verbose := true) (py r"\s*\+\s*
    " ++ INTNUMBER_s ++ py"
    " ++ labelled_floats [py"energy", py"error"] ++ py r"
    \s*(?P<type>\w+)
    \s*\+TDDFT")
/-- `TDDFT_STATE_RE`, castep_res.py:472-480. -/
def TDDFT_STATE_RE : Pat :=
  rx (verbose := true) (py r"
    \s*(?P<state>\d+)
    \s*(?P<occ>\d+)\s*-->
    \s*(?P<unocc>\d+)
    \s*" ++ labelled_floats [py"overlap"] ++ py"
    ")
/-- `BS_RE`, castep_res.py:482-490. -/
def BS_RE : Pat :=
  rx (verbose := true) (py r"
    Spin=\s*(?P<spin>" ++ INTNUMBER_s ++ py r")\s*
    kpt=\s*" ++ INTNUMBER_s ++ py r"\s*
    \(" ++ labelled_floats [py"kx", py"ky", py"kz"] ++ py r"\)\s*
    kpt-group=\s*(?P<kpgrp>" ++ INTNUMBER_s ++ py")
    ")
/-- `THERMODYNAMICS_DATA_RE`, castep_res.py:492. -/
def THERMODYNAMICS_DATA_RE : Pat := rx (labelled_floats [py"t", py"e", py"f", py"s", py"cv"])
/-- `ATOMIC_DISP_RE`, castep_res.py:493-499. -/
def ATOMIC_DISP_RE : Pat :=
  rx (labelled_floats [py"temperature"] ++ py r"\s*" ++ ATOM_s ++ py r"\s*" ++
    labelled_floats [py"displacement"] [some (py"6")])
/-- `MINIMISERS_RE`, castep_res.py:501. -/
def MINIMISERS_s : Str := py"(?:" ++ Str.join (py"|") (MINIMISERS.map Str.upper) ++ py")"
/-- `GEOMOPT_MIN_TABLE_RE`, castep_res.py:502-507. -/
def GEOMOPT_MIN_TABLE_RE : Pat :=
  rx (verbose := true) (py r"\s*\|\s* (?P<step>[^|]+)" ++
    labelled_floats [py"lambda", py"fdelta", py"enthalpy"] (sep := py r"\s*\|\s*") ++ py r"\s* \|")
/-- `GEOMOPT_TABLE_RE`, castep_res.py:509-514. -/
def GEOMOPT_TABLE_RE : Pat :=
  rx (verbose := true) (py r"\s*\|\s* (?P<parameter>\S+)" ++
    labelled_floats [py"value", py"tolerance"] (sep := py r"\s*\|\s*") ++
    py r"\s*\|\s* \S+ (?#Units) \s*\|\s* (?P<converged>No|Yes) \s*\|")
/-- `POPN_RE`, castep_res.py:518-522. -/
def POPN_RE : Pat :=
  rx (py r"\s*" ++ ATOM_s ++ py r"\s*(?P<spin_sep>up:)?" ++
    labelled_floats (SHELLS ++ [py"total", py"charge", py"spin"]) ++ py"?")
/-- `POPN_RE_DN`, castep_res.py:524-526. -/
def POPN_RE_DN : Pat := rx (py r"\s+\d+\s*dn:" ++ labelled_floats (SHELLS ++ [py"total"]))
/-- `BORN_RE`, castep_res.py:529. -/
def BORN_RE : Pat :=
  rx (py r"\s+" ++ ATOM_s ++ py r"(?P<charges>(?:\s*" ++ FNUMBER_s ++
    py r"){3})(?:\s*ID=(?P<label>\S+))?")
/-- `_JC_LABELS`, castep_res.py:533. -/
def JC_LABELS : List Str :=
  [py"fermi_contact", py"spin_dipolar", py"paramagnetic", py"diamagnetic", py"total"]
/-- `MAGRES_RE`, castep_res.py:535-559. -/
def MAGRES_RE : List Pat :=
  [rx (py r"\s*\|\s*" ++ ATOM_s ++ labelled_floats [py"cs_iso", py"cs_aniso"] ++ py r"\s*" ++
     py"(?P<asym>" ++ FNUMBER_s ++ py r"|N/A)\s*\|\s*"),
   rx (py r"\s*\|\s*" ++ ATOM_s ++ labelled_floats [py"cs_iso", py"cs_aniso"] ++ py r"\s*" ++
     py"(?P<asym>" ++ FNUMBER_s ++ py"|N/A)" ++ labelled_floats [py"cq", py"eta"] ++ py r"\s*\|\s*"),
   rx (py r"\s*\|\s*" ++ ATOM_s ++ labelled_floats [py"cq"] ++ py r"\s*" ++
     py"(?P<asym>" ++ FNUMBER_s ++ py r"|N/A)\s*\|\s*"),
   rx (py r"\s*\|\**\s*" ++ ATOM_s ++ labelled_floats JC_LABELS ++ py r"\s*\|\s*"),
   rx (py r"\s*\|\s*" ++ ATOM_s ++ labelled_floats [py"hf_iso"] ++ py r"\s*\|\s*")]
/-- `FRACCOORDS_RE`, castep_res.py:571-574. -/
def FRACCOORDS_RE : Pat :=
  rx (py r"\s*(?P<index>" ++ INTNUMBER_s ++ py")" ++ labelled_floats [py"u", py"v", py"w"] ++
    py r"\s*(?P<spec>" ++ SPECIES_s ++ py")" ++ labelled_floats [py"mass"])
/-- `PHONON_PHONON_RE`, castep_res.py:576-582. -/
def PHONON_PHONON_RE : Pat :=
  rx (verbose := true) (py r"
    \s+q-pt=\s*" ++ INTNUMBER_s ++ py r"\s*
    " ++ labelled_floats [py"qpt", py"pth"] [some (py"3"), some (py"1")] ++ py"
    ")
/-- `PROCESS_PHONON_PHONON_RE`, castep_res.py:584. -/
def PROCESS_PHONON_PHONON_RE : Pat := rx (labelled_floats [py"n", py"f", py"Grad_qf"])
/-- `BANDS_FERMI_RE`, castep_res.py:588-590. -/
def BANDS_FERMI_RE : Pat :=
  rx (py r"Fermi energ(ies|y) \(in atomic units\)\s*" ++ labelled_floats [py"a", py"b"])
/-- `DEVEL_CODE_VAL_RE`, castep_res.py:596. -/
def DEVEL_CODE_VAL_s : Str := py r"[A-Za-z0-9_]+[:=][^ \t\n;]+"
/-- `DEVEL_CODE_BLOCK_GENERIC_RE`, castep_res.py:598. -/
def DEVEL_CODE_BLOCK_GENERIC_s : Str := py r"([A-Za-z0-9_]+):(?:.*):end\1"
/-- `PARAM_VALUE_RE`, castep_res.py:600-612. -/
def PARAM_VALUE_RE : Pat :=
  rx (ci := true) (verbose := true) (py r"
^\s*(?P<key>[a-z_]+)
\s*[ \t:=]\s*
    (?:(?P<val>(?:\s*" ++ NUMBER_s ++ py r")+)|
    # String starts with anything which is NOT digit,+,-,. or space.
    (?P<str>[^-+\d\s.](?:\s*\S+)*))
    # If numeric value, chance of unit
    (?(val)(?P<unit>\s\S+)?)
\s*$
")
/-- `IONIC_CONSTRAINTS_RE`, castep_res.py:614. -/
def IONIC_CONSTRAINTS_RE : Pat := rx (py r"^\s*\d\s+" ++ ATOM_s ++ THREEVEC_s)
/-- `POSITIONS_LINE_RE`, castep_res.py:615-618. -/
def POSITIONS_LINE_RE : Pat :=
  rx (py r"^\s*(?P<spec>" ++ SPECIES_s ++ py")" ++ py r"(?P<pos>(?:\s+" ++ FLOAT_RAT_s ++ py"){3})")
/-- `POSITIONS_SPIN_RE`, castep_res.py:619-622. -/
def POSITIONS_SPIN_RE : Pat :=
  rx (ci := true) (py r"(?:spin|magmom)\s*[= :\t]\s*(?P<spin>" ++ FLOAT_RAT_s ++ py")")
/-- `POSITIONS_MIXTURE_RE`, castep_res.py:623-626. -/
def POSITIONS_MIXTURE_RE : Pat :=
  rx (ci := true) (py r"mixture[= :\t]\(\s*" ++ labelled_floats [py"mix", py"ratio"] ++ py r"\)")
/-- `SPEC_PROP_RE`, castep_res.py:627. -/
def SPEC_PROP_RE : Pat := rx (py r"\s*" ++ ATOM_NAME_s ++ py r"\s+(?P<val>.*)")
/-- `POL_HEADER_RE`, castep_res.py:630. -/
def POL_HEADER_RE : Pat := rx (py r"^\s*(?P<key>[\w\s]+)\s*\((?P<unit>[^)]+)\)")
/-- `POL_TABLE_RE`, castep_res.py:631-635. -/
def POL_TABLE_RE : Pat :=
  rx (py r"\s*(?P<key>Ionic|Elec|Total)[^:]+:" ++ labelled_floats [py"a", py"b", py"c"] ++ py r"\s*" ++
    py r"\((?P<unit>[^)]+)\)")
/-- `ELASTIC_BLOCK_RE`, castep_res.py:638. -/
def ELASTIC_BLOCK_RE : Pat := rx (py r"\s*BEGIN (?P<key>[^(]+)(?:\((?P<unit>[^)]+)\))?")
/-- `ELASTIC_INTERNAL_STRAIN_RE`, castep_res.py:639-643. -/
def ELASTIC_INTERNAL_STRAIN_RE : Pat :=
  rx (py r"\s*(?P<index>\d+)\s+(?P<spec>" ++ ATOM_NAME_s ++ py r")\s+" ++ py r"(?P<dir>[XYZ])\s+" ++
    labelled_floats SND_D)

/-- Every pattern of the module. -/
def all : List Pat :=
  [NUMBER_RE, FLOAT_RAT_RE, ATOM_NAME_GRP_RE, TAG_RE, ATOMIC_DATA_3VEC, ATOMIC_DATA_FORCE,
   ATOMIC_DATA_TAG, LABELLED_POS_RE, COLON_SEP_RE, MIXTURE_LINE_1_RE, MIXTURE_LINE_2_RE, SCF_LOOP_RE,
   INTEGRATED_SPIN_DENSITY_RE, PS_SHELL_RE, PSPOT_PROJ_RE, PSPOT_REFERENCE_STRUC_RE, PSPOT_DEF_RE,
   PSPOT_INFO_RE, PSPOT_FULL_LAZY, PSPOT_TEST_RE, PSPOT_ADJ_RE, PSPOT_FLAG_RE, FORCES_BLOCK_RE,
   STRESSES_BLOCK_RE, BOND_RE, TWO_BODY_ONE_SPEC, TWO_BODY_SPEC, TWO_BODY_VAL, THREE_BODY_SPEC,
   THREE_BODY_VAL, ORBITAL_POPN_RE, PHONON_RE, PROCESS_PHONON_RE, TDDFT_RE, TDDFT_STATE_RE, BS_RE,
   THERMODYNAMICS_DATA_RE, ATOMIC_DISP_RE, GEOMOPT_MIN_TABLE_RE, GEOMOPT_TABLE_RE, POPN_RE, POPN_RE_DN,
   BORN_RE] ++ MAGRES_RE ++
  [FRACCOORDS_RE, PHONON_PHONON_RE, PROCESS_PHONON_PHONON_RE, BANDS_FERMI_RE, PARAM_VALUE_RE,
   IONIC_CONSTRAINTS_RE, POSITIONS_LINE_RE, POSITIONS_SPIN_RE, POSITIONS_MIXTURE_RE, SPEC_PROP_RE,
   POL_HEADER_RE, POL_TABLE_RE, ELASTIC_BLOCK_RE, ELASTIC_INTERNAL_STRAIN_RE]

/-- The pattern standing for one that does not compile. -/
def bad : Re := .set ⟨false, [], false⟩

end Verif.Res
