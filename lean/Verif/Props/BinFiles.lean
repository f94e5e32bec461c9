import Verif.Lemmas.BinFiles
/-
Properties C07, C08, C54: `.cst_esp` and `.epme_bin` files.
-/
namespace Verif.Props
open Verif Verif.Spec

/-! ### C07 -/

/-- What the user should get from a `.cst_esp` file. -/
def espResult (n_spins : Int) (grid : List Int) (esp mgga : Grid) : Dict Key PyVal :=
  [(.str (py"n_spins"), .int n_spins), (.str (py"grid"), .tuple (grid.map .int)),
   (.str (py"esp"), .list (gridVal esp))] ++
  if mgga = [] then [] else [(.str (py"mgga"), .list (gridVal mgga))]

/-- C07, what holds: every value is at its own place and the meta-GGA grid is split off at `grid[0]`
planes.  Missing: a file with a meta-GGA part whose grid has a single plane (see
`C07_single_plane_merged`). -/
theorem C07_grid_partial (n_spins nx : Int) (grid : List Int) (esp mgga : Grid)
    (hfit : Fits (espRecords n_spins (nx :: grid) esp mgga))
    (hs : I32 n_spins) (hgrid : ∀ i ∈ nx :: grid, I32 i)
    (hesp : ∀ p ∈ esp, p ≠ [] ∧ I32 (1 + p.length))
    (hmgga : ∀ p ∈ mgga, p ≠ [] ∧ I32 (1 + p.length))
    (hlen : nx = esp.length) (hpos : esp ≠ []) (hml : I32 (1 + mgga.length)) (hel : I32 (1 + esp.length))
    (hsingle : mgga ≠ [] → 2 ≤ esp.length) :
    parse_cst_esp_file (opened (encodeFile (espRecords n_spins (nx :: grid) esp mgga)))
      = .ok (espResult n_spins (nx :: grid) esp mgga) := by
  have hcur := Cur.opened _ hfit
  obtain ⟨f', h1, h2⟩ := Cur.dict (dt := [(.str (py"n_spins"), .one .int), (.str (py"grid"), .many .int)])
    (.cons (parse_int_one n_spins hs) (.cons (parse_int_many (nx :: grid) hgrid) .nil))
    (rest := gridRecords 1 esp ++ gridRecords 1 mgga) hcur
  obtain ⟨p, g, rfl⟩ : ∃ p g, esp = p :: g := by
    cases esp with
    | nil => exact absurd rfl hpos
    | cons p g => exact ⟨p, g, rfl⟩
  have hp := hesp p (by simp)
  have hgl : ∀ q ∈ (p :: g), q ≠ [] := fun q hq => (hesp q hq).1
  have hloop : espLoop none [] [] (gridRecords 1 (p :: g) ++ gridRecords 1 mgga)
      = .ok (gridVal (p :: g) ++ gridVal mgga) := by
    rw [espLoop_grid g (fun q hq => hesp q (by simp [hq])) none 1
      (by simp [I32] at hel ⊢; omega) [] [] _ p hp.1 hp.2 (by simp)]
    rw [if_pos rfl, List.nil_append]
    have hlast : ((p :: g).getLast (by simp)).map rowVal ≠ [] := by
      simpa using hgl _ (List.getLast_mem (by simp))
    have hjoin : gridVal ((p :: g).dropLast) ++
        [PyVal.list (((p :: g).getLast (by simp)).map rowVal)] = gridVal (p :: g) := by
      conv => rhs; rw [← List.dropLast_concat_getLast (by simp : p :: g ≠ [])]
      simp [gridVal]
    cases mgga with
    | nil => rw [gridRecords, espLoop, hjoin]; simp [gridVal]
    | cons q m =>
      have hq := hmgga q (by simp)
      have hl2 := hsingle (by simp)
      have := espLoop_grid m (fun q hq => hmgga q (by simp [hq])) (some ((1 + g.length : Nat) : Int)) 1
        (by simp [I32] at hml ⊢; omega) (((p :: g).getLast (by simp)).map rowVal)
        (gridVal ((p :: g).dropLast)) [] q hq.1 hq.2 (by simp at hl2 ⊢; omega)
      rw [List.append_nil] at this
      rw [this, if_neg hlast, espLoop, hjoin]
      have hjoin2 : gridVal ((q :: m).dropLast) ++
          [PyVal.list (((q :: m).getLast (by simp)).map rowVal)] = gridVal (q :: m) := by
        conv => rhs; rw [← List.dropLast_concat_getLast (by simp : q :: m ≠ [])]
        simp [gridVal]
      rw [List.append_assoc, hjoin2]
  rw [parse_cst_esp_file, h1]
  simp only [h2.toList, hloop]
  have hgl2 : (gridVal (p :: g)).length = (p :: g).length := by simp [gridVal]
  have hgm : (gridVal mgga).length = mgga.length := by simp [gridVal]
  subst hlen
  simp only [bind, Except.bind, Dict.getItem, Dict.get?]
  simp only [List.map_cons, Key.str.injEq]
  rw [if_neg (by decide)]
  simp only [if_true, List.length_append, hgl2, hgm]
  cases mgga with
  | nil =>
    simp only [List.length_nil, Nat.add_zero, Int.lt_irrefl, if_false, pure, Except.pure]
    simp [Dict.set, espResult, gridVal]
  | cons q m =>
    rw [if_pos (by simp; omega)]
    have hk : sliceIdx ((p :: g).length + (q :: m).length) ((p :: g).length : Int)
        = (gridVal (p :: g)).length := by
      rw [sliceIdx, if_pos (by omega), hgl2]; omega
    rw [hk]
    simp only [List.take_left, List.drop_left, pure, Except.pure]
    simp [Dict.set, espResult]

/-- A 2×1×1 grid with a meta-GGA part meets the hypotheses. -/
example : let z : F64 := ⟨0⟩
    let esp : Grid := [[[(z, z)]], [[(z, z)]]]
    Fits (espRecords 1 [2, 1, 1] esp esp) ∧ (∀ i ∈ [(2 : Int), 1, 1], I32 i) ∧
    (∀ p ∈ esp, p ≠ [] ∧ I32 (1 + p.length)) ∧ esp ≠ [] ∧ I32 (1 + esp.length) := by
  refine ⟨by decide +kernel, by decide, by decide +kernel, by decide, by decide⟩

/-- C07 fails for a single-plane grid with a meta-GGA part: both grids carry the plane index 1 and
are merged into one plane of the electrostatic potential; no `mgga` entry appears. -/
theorem C07_single_plane_merged :
    ∃ (esp mgga : Grid), mgga ≠ [] ∧ esp.length = 1 ∧
      parse_cst_esp_file (opened (encodeFile (espRecords 1 [1, 1, 1] esp mgga)))
        = .ok [(.str (py"n_spins"), .int 1), (.str (py"grid"), .tuple [.int 1, .int 1, .int 1]),
           (.str (py"esp"), .list [.list ((esp.flatten ++ mgga.flatten).map rowVal)])] :=
  ⟨[[[(⟨0⟩, ⟨0⟩)]]], [[[(⟨1⟩, ⟨0⟩)]]], by decide, by decide, by decide +kernel⟩

/-! ### C08 -/

/-- C08, success: an expected header is consumed and nothing else. -/
theorem C08_expected (rs : List Bytes) (h : Fits rs) (i : Nat) (hi : i < rs.length) :
    Epme.check_header rs[i] (atRecord rs i) = (.ok (), atRecord rs (i + 1)) := by
  rw [Epme.check_header, next_atRecord rs h i hi]
  simp

/-- C08, what holds: an unexpected header (not the first record) raises `ValueError`; but the reader
ends up one record before the offending one, not at it.  (Missing: the position promised by the
property, refuted in `C08_wrong_position`, and the first record, see `C08_first_record`.) -/
theorem C08_unexpected_partial (rs : List Bytes) (h : Fits rs) (i : Nat) (hi : i < rs.length)
    (test : Bytes) (ht : rs[i] ≠ test) (hpos : 1 ≤ i) :
    Epme.check_header test (atRecord rs i) = (.error .valueError, atRecord rs (i - 1)) := by
  rw [Epme.check_header, next_atRecord rs h i hi]
  simp only [ne_eq, ht, not_false_eq_true, if_true]
  rw [FReader.rewind, skip_atRecord rs h (i + 1) (-2) (by omega) (by omega) (by omega)]
  simp only
  congr 2; omega

/-- C08 on the first record of a real file: the `rewind(2)` leaves the file, so `OSError` escapes
instead of the announced `ValueError`. -/
theorem C08_first_record (rs : List Bytes) (h : Fits rs) (hi : 0 < rs.length)
    (test : Bytes) (ht : rs[0] ≠ test) :
    (Epme.check_header test (atRecord rs 0)).1 = .error .osError := by
  rw [Epme.check_header, next_atRecord rs h 0 hi]
  simp only [ne_eq, ht, not_false_eq_true, if_true]
  rw [FReader.rewind, skip_tooFar rs h (0 + 1) (-2) (by omega) (by omega)]

/-- C08 fails: after the failed check the next record read is not the offending one. -/
theorem C08_wrong_position :
    ∃ (rs : List Bytes) (i : Nat) (hi : i < rs.length) (test : Bytes), Fits rs ∧ rs[i] ≠ test ∧
      (Epme.check_header test (atRecord rs i)).1 = .error .valueError ∧
      (FReader.next (Epme.check_header test (atRecord rs i)).2).1 ≠ .ok rs[i] := by
  refine ⟨[[1], [2]], 1, by decide, [3], by simp [Fits], by decide, by decide +kernel, by decide +kernel⟩

example : Fits [[1], [2, 2], [3]] ∧ ([[1], [2, 2], [3]] : List Bytes)[1] ≠ [3] := by
  refine ⟨by simp [Fits], by decide⟩

/-! ### C54 -/

theorem isqrtAux_eq (n r : Nat) (h1 : r * r ≤ n) (h2 : n < (r + 1) * (r + 1)) (k : Nat) (hk : r ≤ k) :
    Epme.isqrtAux n k = r := by
  induction k with
  | zero => simp [Epme.isqrtAux]; omega
  | succ k ih =>
    rw [Epme.isqrtAux]
    split
    · rename_i hle
      have : k + 1 ≤ r := by
        by_contra hc
        have : (r + 1) * (r + 1) ≤ (k + 1) * (k + 1) := Nat.mul_le_mul (by omega) (by omega)
        omega
      omega
    · rename_i hle
      apply ih
      by_contra hc
      have : r = k + 1 := by omega
      subst this; omega

theorem isqrt_square (n : Nat) : Epme.isqrt (n * n) = .ok n := by
  have e : ((n : Int) * n) = ((n * n : Nat) : Int) := by push_cast; rfl
  rw [Epme.isqrt, e, if_neg (by omega)]
  rw [Int.toNat_natCast, isqrtAux_eq (n * n) n (Nat.le_refl _) (by
    have : (n + 1) * (n + 1) = n * n + 2 * n + 1 := by grind
    omega) _ (Nat.le_mul_self n)]

theorem _root_.Verif.Cur.getInt {f : BFile} {i : Int} {rest : List Bytes} (h : Cur f (encInt32 i :: rest))
    (hi : I32 i) : ∃ f', Epme.getInt f = (.ok i, f') ∧ Cur f' rest := by
  obtain ⟨f', h1, h2⟩ := h.get (parse_int_one i hi)
  exact ⟨f', by rw [Epme.getInt, h1], h2⟩

theorem _root_.Verif.Cur.check {f : BFile} {r : Bytes} {rest : List Bytes} (h : Cur f (r :: rest)) :
    ∃ f', Epme.check_header r f = (.ok (), f') ∧ Cur f' rest := by
  obtain ⟨f', h1, h2⟩ := h.next
  exact ⟨f', by rw [Epme.check_header, h1]; simp, h2⟩

/-- C54.  For every consistent `.epme_bin` file, `parse_epme_bin_file` returns all of its contents:
each ion's position under its label (padding removed) and index, each k-point's data under its spin
and k-point index, all phonons in order, and the counts. -/
theorem C54_epme_roundtrip (e : EFile) (hfit : Fits (epmeRecords e)) (hg : e.Good) :
    Epme.parse_epme_bin_file (opened (encodeFile (epmeRecords e))) = .ok (epmeResult e) := by
  have hcur := Cur.opened _ hfit
  generalize hf0 : opened (encodeFile (epmeRecords e)) = f₀ at hcur ⊢
  simp only [epmeRecords, List.append_assoc, List.cons_append, List.nil_append] at hcur
  -- header
  obtain ⟨f₁, h1, c1⟩ := Cur.dict (dt := Epme.headerDtypes)
    (rs := [e.file_type, encInt32 e.version, e.header, encInt32 e.n_spins, encF64 e.fermi])
    (.cons (parse_text_one _ hg.ftype) (.cons (parse_int_one _ hg.version)
      (.cons (parse_text_one _ hg.header) (.cons (parse_int_one _ hg.spins)
        (.cons (parse_float_one _) .nil))))) hcur
  -- atoms
  obtain ⟨f₂, h2, c2⟩ := c1.check
  obtain ⟨f₃, h3, c3⟩ := Cur.getInt c2 hg.n_ions
  obtain ⟨f₄, h4, c4⟩ := c3.get (parse_float_many e.lattice)
  obtain ⟨f₅, h5, c5⟩ := Cur.cycle3 (t₁ := .one .int) (t₂ := .one .str) (t₃ := .many .float) e.ions
    (fun a => encInt32 a.index) (fun a => a.label) (fun a => encFloats a.pos)
    (fun a => .int a.index) (fun a => .str (a.label.map (·.val))) (fun a => floatsVal a.pos)
    (fun a ha => ⟨parse_int_one _ (hg.ions a ha).1, parse_text_one _ (hg.ions a ha).2,
      parse_float_many _⟩) c4
  have hions : (e.ions.map fun a => [PyVal.int a.index, PyVal.str (a.label.map (·.val)),
      floatsVal a.pos]).foldl Epme.addIon [] = e.ions.map fun a => (ionKey a, floatsVal a.pos) := by
    rw [List.foldl_map]
    exact Dict.foldl_set_fresh e.ions ionKey (fun a => floatsVal a.pos) []
      (by simpa [Dict.keys] using hg.ion_keys)
  -- k-points
  obtain ⟨f₆, h6, c6⟩ := c5.check
  obtain ⟨f₇, h7, c7⟩ := Cur.getInt c6 hg.n_kp
  have hnb : I32 (e.n_bands : Int) := by
    have := hg.n_bands
    simp only [I32] at this ⊢
    have h0 : (e.n_bands : Int) ≤ e.n_bands * e.n_bands := by
      have := Nat.le_mul_self e.n_bands
      exact_mod_cast this
    omega
  obtain ⟨f₈, h8, c8⟩ := Cur.getInt c7 hnb
  obtain ⟨f₉, h9, c9⟩ := Cur.cycle_dict (dt := Epme.kpointDtypes) e.kpoints kpointRecords
    (fun k => [(.str (py"ns"), .int k.ns), (.str (py"nk"), .int k.nk),
      (.str (py"n_bands"), .int k.n_bands), (.str (py"min_band"), .int k.min_band),
      (.str (py"eigenvalues"), floatsVal k.eigenvalues), (.str (py"velocities"), floatsVal k.velocities)])
    (fun k hk => by
      obtain ⟨a, b, c, d⟩ := hg.kpts k hk
      exact .cons (parse_int_one _ a) (.cons (parse_int_one _ b) (.cons (parse_int_one _ c)
        (.cons (parse_int_one _ d) (.cons (parse_float_many _) (.cons (parse_float_many _) .nil)))))) c8
  have htot : (e.n_spins * ((2 * (e.phonons.length : Int)) / 2) * 2).toNat = e.kpoints.length := by
    have := hg.n_kpoints
    have e2 : (2 * (e.phonons.length : Int)) / 2 = e.phonons.length := by omega
    rw [e2]
    have e3 : e.n_spins * (e.phonons.length : Int) * 2 = e.n_spins * (2 * e.phonons.length) := by grind
    rw [e3, ← this]; simp
  have hkp : ∀ (l : List EKpoint) (d : Dict Key PyVal), (d.keys ++ l.map kpointKey).Nodup →
      (l.map (fun k => [(Key.str (py"ns"), PyVal.int k.ns), (.str (py"nk"), .int k.nk),
      (.str (py"n_bands"), .int k.n_bands), (.str (py"min_band"), .int k.min_band),
      (.str (py"eigenvalues"), floatsVal k.eigenvalues), (.str (py"velocities"), floatsVal k.velocities)])).foldlM
        Epme.addKpoint d = .ok (d ++ l.map fun k => (kpointKey k, kpointVal k)) := by
    intro l
    induction l with
    | nil => intro d _; simp; rfl
    | cons k l ih =>
      intro d hd
      have hk : kpointKey k ∉ d.keys := by
        intro hm
        rw [List.nodup_append] at hd
        exact hd.2.2 _ hm _ (by simp) rfl
      have hstep : Epme.addKpoint d [(Key.str (py"ns"), PyVal.int k.ns), (.str (py"nk"), .int k.nk),
          (.str (py"n_bands"), .int k.n_bands), (.str (py"min_band"), .int k.min_band),
          (.str (py"eigenvalues"), floatsVal k.eigenvalues), (.str (py"velocities"), floatsVal k.velocities)]
          = .ok (d ++ [(kpointKey k, kpointVal k)]) := by
        show Except.ok (Dict.set d (kpointKey k) (kpointVal k)) = _
        rw [Dict.set_eq_append d _ _ hk]
      rw [List.map_cons, List.foldlM_cons, hstep]
      show List.foldlM _ _ _ = _
      rw [ih _ (by simpa [Dict.keys] using hd)]
      simp
  -- phonons
  obtain ⟨g₁, h10, c10⟩ := c9.check
  have hnp : I32 (e.phonons.length : Int) := by
    have := hg.n_kp; simp only [I32] at this ⊢; omega
  obtain ⟨g₂, h11, c11⟩ := Cur.getInt c10 hnp
  obtain ⟨g₃, h12, c12⟩ := Cur.getInt c11 hg.n_bands
  rw [← List.append_nil (List.flatMap phononRecords e.phonons)] at c12
  obtain ⟨g₄, h13, c13⟩ := Cur.cycle_dict (dt := Epme.phononDtypes) e.phonons phononRecords
    (fun p => [(.str (py"_nq"), .int p.nq), (.str (py"_nb"), .int p.nb), (.str (py"_nb2"), .int p.nb2),
      (.str (py"kpts"), .tuple (p.kpts.map .int)), (.str (py"frequencies"), floatsVal p.frequencies),
      (.str (py"modes"), rowVal p.modes), (.str (py"matrix_elements"), rowVal p.elements)])
    (fun p hp => by
      obtain ⟨a, b, c, d⟩ := hg.phon p hp
      exact .cons (parse_int_one _ a) (.cons (parse_int_one _ b) (.cons (parse_int_one _ c)
        (.cons (parse_int_many _ d) (.cons (parse_float_many _) (.cons (parse_complex_many _)
          (.cons (parse_complex_many _) .nil))))))) c12
  -- assemble
  have hA : asciiBytes (py"ATOM") = ([65, 84, 79, 77] : Bytes) := by decide +kernel
  have hK : asciiBytes (py"KPOINT") = ([75, 80, 79, 73, 78, 84] : Bytes) := by decide +kernel
  have hE : asciiBytes (py"EPCOUPLING") = ([69, 80, 67, 79, 85, 80, 76, 73, 78, 71] : Bytes) := by
    decide +kernel
  rw [hA] at h2; rw [hK] at h6; rw [hE] at h10
  rw [Epme.parse_epme_bin_file, Epme.parse_header, h1]
  simp only
  rw [Epme.parse_atoms, h2]
  simp only [h3, h4, Int.toNat_natCast, h5, hions]
  rw [Epme.parse_kpoint, h6]
  simp only [h7, h8]
  have hsp : ∀ (a b c d e' f g : PyVal), Epme.intItem
      [(.str (py"version"), a), (.str (py"n_spins"), .int e.n_spins),
       (.str (py"fermi_energy"), b), (.str (py"n_ions"), c), (.str (py"real_lattice"), d),
       (.str (py"ions"), e'), (.str (py"n_kpoint_pairs"), f), (.str (py"n_bands"), g)]
       (.str (py"n_spins")) = .ok e.n_spins := fun _ _ _ _ _ _ _ => rfl
  have hset : ∀ (a b c d e' f g h : PyVal), (((((Epme.update [] (Epme.filter_underscore
      [(.str (py"_FILE_TYPE"), a), (.str (py"version"), b), (.str (py"_HEADER"), c),
       (.str (py"n_spins"), d), (.str (py"fermi_energy"), e')])).set (.str (py"n_ions")) f).set
       (.str (py"real_lattice")) g).set (.str (py"ions")) h) : Dict Key PyVal)
      = [(.str (py"version"), b), (.str (py"n_spins"), d), (.str (py"fermi_energy"), e'),
        (.str (py"n_ions"), f), (.str (py"real_lattice"), g), (.str (py"ions"), h)] :=
    fun _ _ _ _ _ _ _ _ => rfl
  rw [hset]
  have hset2 : ∀ (b d e' f g h i j : PyVal),
      ((Dict.set ([(.str (py"version"), b), (.str (py"n_spins"), d), (.str (py"fermi_energy"), e'),
        (.str (py"n_ions"), f), (.str (py"real_lattice"), g), (.str (py"ions"), h)] : Dict Key PyVal)
        (.str (py"n_kpoint_pairs")) i).set (.str (py"n_bands")) j)
      = [(.str (py"version"), b), (.str (py"n_spins"), d), (.str (py"fermi_energy"), e'),
        (.str (py"n_ions"), f), (.str (py"real_lattice"), g), (.str (py"ions"), h),
        (.str (py"n_kpoint_pairs"), i), (.str (py"n_bands"), j)] := fun _ _ _ _ _ _ _ _ => rfl
  rw [hset2, hsp]
  simp only [htot, h9]
  rw [hkp e.kpoints [] (by simpa [Dict.keys] using hg.kpoint_keys)]
  simp only [List.nil_append]
  rw [Epme.parse_phonons, h10]
  simp only [h11, h12, isqrt_square]
  have e2 : (2 * (e.phonons.length : Int)) / 2 = e.phonons.length := by omega
  rw [e2]
  have hfin : ∀ (b d e' f g h i j k : PyVal),
      let acc : Dict Key PyVal := (Dict.set ([(.str (py"version"), b), (.str (py"n_spins"), d),
        (.str (py"fermi_energy"), e'),
        (.str (py"n_ions"), f), (.str (py"real_lattice"), g), (.str (py"ions"), h),
        (.str (py"n_kpoint_pairs"), i), (.str (py"n_bands"), j)] : Dict Key PyVal) (.str (py"kpoints")) k)
      Epme.setdefault (Epme.setdefault acc (.str (py"n_kpoint_pairs")) i) (.str (py"n_bands")) j = acc ∧
      acc.get? (.str (py"n_kpoint_pairs")) = some i ∧ acc.get? (.str (py"n_bands")) = some j ∧
      ∀ p, acc.set (.str (py"phonons")) p = [(.str (py"version"), b), (.str (py"n_spins"), d),
        (.str (py"fermi_energy"), e'),
        (.str (py"n_ions"), f), (.str (py"real_lattice"), g), (.str (py"ions"), h),
        (.str (py"n_kpoint_pairs"), i), (.str (py"n_bands"), j), (.str (py"kpoints"), k),
        (.str (py"phonons"), p)] :=
    fun _ _ _ _ _ _ _ _ _ => ⟨rfl, rfl, rfl, fun _ => rfl⟩
  obtain ⟨k1, k2, k3, k4⟩ := hfin (.int e.version) (.int e.n_spins) (.float e.fermi)
    (.int e.ions.length) (floatsVal e.lattice)
    (.dict (e.ions.map fun a => (ionKey a, floatsVal a.pos))) (.int e.phonons.length) (.int e.n_bands)
    (.dict (e.kpoints.map fun k => (kpointKey k, kpointVal k)))
  rw [k1, k2, k3]
  simp only [ne_eq, not_true_eq_false, if_false, Int.toNat_natCast, h13, k4]
  rw [epmeResult, List.map_map]
  rfl

/-- A file with one padded ion label, one phonon and two k-points is consistent. -/
def sampleEpme : EFile :=
  { file_type := [69], version := 1, header := [72], n_spins := 1, fermi := ⟨0⟩, lattice := [],
    ions := [⟨1, [72, 32, 32], [⟨0⟩]⟩, ⟨2, [72, 32, 32], []⟩], n_bands := 2,
    kpoints := [⟨1, 1, 2, 1, [], []⟩, ⟨1, 2, 2, 1, [⟨5⟩], []⟩],
    phonons := [⟨1, 2, 4, [1, 2], [], [], []⟩] }

example : sampleEpme.Good ∧ Fits (epmeRecords sampleEpme) := by
  constructor
  · constructor <;> decide +kernel
  · decide +kernel

end Verif.Props
