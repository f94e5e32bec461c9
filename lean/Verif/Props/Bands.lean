import Verif.Lemmas.Bands
import Verif.Props.Header
/-
C37: band structures.
-/
namespace Verif.Props
open Verif Spec

/-- Neither the cell nor an ion: no row of three numbers. -/
def HeadItem.Simple : HeadItem → Prop
  | .count _ _ => True
  | .note _ _ => True
  | _ => False

instance (i : HeadItem) : Decidable (HeadItem.Simple i) := by cases i <;> unfold HeadItem.Simple <;> infer_instance

theorem simple_plain {opt : Str} {i : HeadItem} {ls : List Str} (h : i.Lines opt ls) (hs : HeadItem.Simple i) :
    ∀ l ∈ ls, Plain l := by
  cases i with
  | count key n => obtain ⟨line, rfl, -, h2, -⟩ := h; simpa using h2
  | note hit nums => obtain ⟨line, rfl, -, -, h2, -⟩ := h; simpa using h2
  | cell _ => cases hs
  | ion _ => cases hs

/-- C37.  A file with a header (counts, other lines, and last the cell vectors) and any number of k-points, each
with the decimals of one or two spin components, gives one entry per k-point, in order, and every
eigenvalue (nearest double) under its own k-point and spin component, beside the header. -/
theorem C37_bands (items : List HeadItem) (lines : List (List Str)) (rows : List (List Numeral)) (cell : List Str)
    (ks : List KPoint) (klines : List (List Str))
    (hl : List.Forall₂ (HeadItem.Lines (py"Fermi energy")) items lines) (hs : ∀ i ∈ items, HeadItem.Simple i)
    (hc : (HeadItem.cell rows).Lines (py"Fermi energy") cell)
    (h3 : ∀ r ∈ rows, r.length = 3) (hsp : ∀ l ∈ cell.tail, ∃ c r, l = c :: r ∧ isSpace c = true)
    (hk : List.Forall₂ KPoint.Lines ks klines) (hok : ∀ k ∈ ks, k.Ok)
    (hn : ∀ i ∈ items, ∀ n ∈ i.nums, n.Valid ∧ n.InRange)
    (hb : ∀ key n, .count key n ∈ items → Str.join (py" ") key ≠ py"bands") :
    ∃ rd fl : Numeral → F64, (∀ i ∈ items, Reads rd i.nums) ∧ Reads rd rows.flatten ∧ (∀ k ∈ ks, Reads rd k.nums) ∧
      Reads fl (ks.map KPoint.weight) ∧
      parse_bands_file (lines.flatten ++ cell ++ klines.flatten) =
        .ok (.dict ((.str (py"bands"), .list (ks.map (KPoint.entry rd fl))) ::
          headerOf (py"Fermi energy") rd (items ++ [.cell rows]))) := by
  obtain ⟨rd, fl, hrd⟩ := readings
  have hc' := hc
  obtain ⟨title, a, b, c, x, y, z, rfl, rfl, t1, t2, t3, t4⟩ := hc'
  have hcell : ∀ n ∈ [x, y, z].flatten, n.Valid ∧ n.InRange := by
    intro n hn
    rw [List.mem_flatten] at hn
    obtain ⟨r, hr, hn⟩ := hn
    simp at hr
    rcases hr with rfl | rfl | rfl
    exacts [(t4 (a, r) (by simp)).2 n hn, (t4 (b, r) (by simp)).2 n hn, (t4 (c, r) (by simp)).2 n hn]
  have hwt : ∀ k ∈ ks, k.weight.Valid ∧ k.weight.InRange := fun k hk => (hok k hk).1 _ (by simp [KPoint.nums])
  refine ⟨rd, fl, fun i hi n h => (hrd n (hn i hi n h).1 (hn i hi n h).2).1.2,
    fun n h => (hrd n (hcell n h).1 (hcell n h).2).1.2,
    fun k hk n h => (hrd n ((hok k hk).1 n h).1 ((hok k hk).1 n h).2).1.2, ?_, ?_⟩
  · intro n h
    obtain ⟨k, hk, rfl⟩ := List.mem_map.1 h
    exact (hrd _ (hwt k hk).1 (hwt k hk).2).2.2
  -- the header block
  have vec : ∀ l r, (l, r) ∈ [(a, x), (b, y), (c, z)] → (Bands.THREEVEC_RE.search l).isSome = true := by
    intro l r hm
    have hlen : r.length = 3 := by
      apply h3
      simp at hm
      rcases hm with ⟨-, rfl⟩ | ⟨-, rfl⟩ | ⟨-, rfl⟩ <;> simp
    obtain ⟨hf, hv⟩ := t4 _ hm
    match r, hlen with
    | [p, q, s], _ =>
      refine vec_some _ (by rw [VEC_eq]) (hv p (by simp)).1 (hv q (by simp)).1 (hv s (by simp)).1 (hsp l ?_) hf
      simp at hm ⊢
      rcases hm with ⟨rfl, -⟩ | ⟨rfl, -⟩ | ⟨rfl, -⟩ <;> simp
  have nov : ∀ l ∈ lines.flatten ++ [title], (Bands.THREEVEC_RE.search l).isSome = false := by
    intro l hm
    have : Plain l := by
      rcases List.mem_append.1 hm with hm | hm
      · rw [List.mem_flatten] at hm
        obtain ⟨ls, h1, h2⟩ := hm
        obtain ⟨i, hi, h⟩ : ∃ i ∈ items, HeadItem.Lines (py"Fermi energy") i ls := by
          clear hn hb hs
          induction hl with
          | nil => cases h1
          | @cons i l' is lss h0 _ ih =>
            rcases List.mem_cons.1 h1 with rfl | h1
            · exact ⟨i, by simp, h0⟩
            · have hmm : l ∈ lss.flatten ++ [title] := by
                rw [List.mem_append, List.mem_flatten]; exact .inl ⟨ls, h1, h2⟩
              obtain ⟨j, hj, h⟩ := ih hmm h1
              exact ⟨j, by simp [hj], h⟩
        exact simple_plain h (hs i hi) l h2
      · simp at hm; subst hm; exact t3
    rw [vec_none _ (by rw [VEC_eq]) (plain_noVec this)]; rfl
  have hblk : Block.from_re [] (lines.flatten ++ [title, a, b, c] ++ klines.flatten) (fun _ => true)
      (fun l => (Bands.THREEVEC_RE.search l).isSome) 3 =
      (.ok ⟨0, 0, [] :: (lines.flatten ++ [title, a, b] ++ [c])⟩, klines.flatten) := by
    have e : lines.flatten ++ [title, a, b, c] ++ klines.flatten = (lines.flatten ++ [title, a, b]) ++ c :: klines.flatten := by simp
    rw [e]
    apply from_re_lines _ _ _ _ _ _ _ _ rfl ?_ (vec c z (by simp))
    have e2 : lines.flatten ++ [title, a, b] = (lines.flatten ++ [title]) ++ [a, b] := by simp
    rw [e2, List.filter_append, List.filter_eq_nil_iff.2 (fun l hl => by simp [nov l hl])]
    rw [List.filter_cons, if_pos (vec a x (by simp)), List.filter_cons, if_pos (vec b y (by simp))]
    rfl
  have hhead : parse_regular_header Bands.EXTRA_RE (Block.rest ⟨0, 0, [] :: (lines.flatten ++ [title, a, b] ++ [c])⟩) =
      .ok (headerOf (py"Fermi energy") rd (items ++ [.cell [x, y, z]])) := by
    have := regular_header Bands.EXTRA_RE (py"Fermi energy") (looks_lit _ _ (by decide +kernel)) rd
      (.note false [] :: (items ++ [.cell [x, y, z]])) ([[]] :: (lines ++ [[title, a, b, c]]))
      (.cons (note_nil _ (by decide)) (List.rel_append hl (.cons hc .nil))) (by
        intro i hi n hni
        rw [List.mem_cons, List.mem_append, List.mem_singleton] at hi
        rcases hi with rfl | hi | rfl
        · cases hni
        · exact (hrd n (hn i hi n hni).1 (hn i hi n hni).2).1.1
        · exact (hrd n (hcell n hni).1 (hcell n hni).2).1.1)
    have e : ([[]] :: (lines ++ [[title, a, b, c]])).flatten = Block.rest ⟨0, 0, [] :: (lines.flatten ++ [title, a, b] ++ [c])⟩ := by
      simp [Block.rest]
    rw [← e, this]
    rfl
  obtain ⟨s, hst, hbs⟩ := Bands.steps_kpoints rd fl hk hok
    (fun k hk n h => (hrd n ((hok k hk).1 n h).1 ((hok k hk).1 n h).2).1.1)
    (fun k hk => (hrd _ (hwt k hk).1 (hwt k hk).2).2.1) {} [] rfl (fun _ => ⟨rfl, rfl⟩)
  -- the header does not name the list of bands
  have hnb : Key.str (py"bands") ∉ (headerOf (py"Fermi energy") rd (items ++ [.cell [x, y, z]])).keys := by
    rw [headerOf, Dict.mem_keys_set, Dict.ofList, mem_keys_foldl]
    rintro (h | h | h)
    · revert h; decide
    · cases h
    · rw [List.mem_map] at h
      obtain ⟨kv, hkv, e⟩ := h
      rw [List.mem_flatMap] at hkv
      obtain ⟨i, hi, hkv⟩ := hkv
      rw [List.mem_append, List.mem_singleton] at hi
      cases i with
      | count key n =>
        rcases hi with hi | hi
        · simp [HeadItem.entries] at hkv
          subst hkv
          simp at e
          exact hb key n hi e
        · cases hi
      | cell r => simp [HeadItem.entries] at hkv; subst hkv; revert e; simp
      | ion p => simp [HeadItem.entries] at hkv
      | note hit nums =>
        simp only [HeadItem.entries] at hkv
        split at hkv
        · simp at hkv; subst hkv; revert e; simp
        · cases hkv
  have hinfo : (headerOf (py"Fermi energy") rd (items ++ [.cell [x, y, z]])).foldl (fun d kv => Dict.set d kv.1 kv.2)
      [(Key.str (py"bands"), PyVal.list [])] =
      (Key.str (py"bands"), PyVal.list []) :: headerOf (py"Fermi energy") rd (items ++ [.cell [x, y, z]]) := by
    have := Dict.foldl_set_fresh (headerOf (py"Fermi energy") rd (items ++ [.cell [x, y, z]])) Prod.fst Prod.snd
      [(Key.str (py"bands"), PyVal.list [])] (by
        rw [List.nodup_append]
        refine ⟨by simp [Dict.keys], header_keys _ _ _, ?_⟩
        intro k h k' h' e
        simp [Dict.keys] at h
        subst h e
        exact hnb h')
    rw [this]
    simp
  rw [parse_bands_file, hblk]
  simp only
  rw [hhead]
  show (Bands.steps {} klines.flatten >>= fun s => Bands.bands s >>= fun l =>
    Bands.checkBands _ l >>= fun info => pure (.dict info) : PyM PyVal) = _
  rw [hst]
  show (Bands.bands s >>= fun l => Bands.checkBands _ l >>= fun info => pure (.dict info) : PyM PyVal) = _
  rw [hbs]
  show (Bands.checkBands _ _ >>= fun info => pure (.dict info) : PyM PyVal) = _
  rw [hinfo]
  simp only [Bands.checkBands, Dict.get?, if_pos, List.nil_append]
  rfl

/-! ### A file with two k-points, the second of two spin components -/

def exBandHead : List HeadItem := [.count [py"k-points"] (exInt (py"2")), .note true [exDec (py"0") (py"25")]]
def exBandHeadLines : List (List Str) :=
  [[py"Number of k-points    2\n"], [py"Fermi energy (in atomic units)     0.25\n"]]
def exBandCell : List (List Numeral) :=
  [[exDec (py"5") (py"4"), exDec (py"0") (py"0"), exDec (py"0") (py"0")],
   [exDec (py"0") (py"0"), exDec (py"5") (py"4"), exDec (py"0") (py"0")],
   [exDec (py"0") (py"0"), exDec (py"0") (py"0"), exDec (py"5") (py"4")]]
def exBandCellLines : List Str := [py"Unit cell vectors\n", py"   5.4  0.0  0.0\n", py"   0.0 5.4 0.0\n", py"  0.0 0.0 5.4\n"]
def exKs : List KPoint :=
  [⟨[exDec (py"0") (py"0"), exDec (py"0") (py"5"), exDec (py"0") (py"0")], exDec (py"0") (py"25"),
    [⟨some true, py"0", some (py"5"), none⟩, exDec (py"1") (py"5")], none⟩,
   ⟨[exDec (py"0") (py"25"), exDec (py"0") (py"5"), exDec (py"0") (py"0")], exDec (py"0") (py"75"),
    [exDec (py"2") (py"5")], some [exDec (py"3") (py"5")]⟩]
def exKLines : List (List Str) :=
  [[py"K-point     1  0.0  0.5  0.0  0.25\n", py"Spin component 1\n", py"   -0.5\n", py"  1.5\n"],
   [py"K-point     2  0.25  0.5  0.0  0.75\n", py"Spin component 1\n", py"   2.5\n", py"Spin component 2\n", py"  3.5\n"]]

theorem exBandHead_lines : List.Forall₂ (HeadItem.Lines (py"Fermi energy")) exBandHead exBandHeadLines := by
  refine .cons ⟨_, rfl, (isCount_iff _).1 (by decide +kernel), plain_of_split _ (by decide +kernel),
    (fields_iff _ _).2 (by decide +kernel), by decide +kernel, by decide +kernel, by decide +kernel⟩ ?_
  exact .cons ⟨_, rfl, not_count _ (by decide +kernel), not_occurs _ _ (by decide +kernel), plain_of_split _ (by decide +kernel),
    ⟨fun _ => (Str.contains_iff _ _).1 (by decide +kernel), fun _ => rfl⟩,
    .inr ⟨py"Fermi energy (in atomic units)     ", [(exDec (py"0") (py"25"), py"\n")], by decide, rfl, by decide +kernel,
      ⟨by decide +kernel, by intro c hc; cases hc; decide +kernel⟩, by simp,
      by intro p hp; cases hp; exact ⟨by decide +kernel, by intro c hc; cases hc; decide +kernel⟩⟩, by decide +kernel⟩ .nil

theorem exBandCell_lines : (HeadItem.cell exBandCell).Lines (py"Fermi energy") exBandCellLines := by
  refine ⟨_, _, _, _, _, _, _, rfl, rfl, (Str.contains_iff _ _).1 (by decide +kernel), not_count _ (by decide +kernel),
    plain_of_split _ (by decide +kernel), ?_⟩
  intro p hp
  simp only [List.mem_cons, List.not_mem_nil, or_false] at hp
  rcases hp with rfl | rfl | rfl <;> exact ⟨(fields_iff _ _).2 (by decide +kernel), by decide +kernel⟩

theorem exKs_lines : List.Forall₂ KPoint.Lines exKs exKLines := by
  have f : ∀ (s : Str) (n : Numeral), Str.split s = [n.text] → NumberLine s n := fun s n h => (fields_iff _ _).2 h
  have one : SpinLine 1 (py"Spin component 1\n") :=
    ⟨⟨py" 1\n", rfl⟩, exInt (py"1"), [], (fields_iff _ _).2 (by decide +kernel), by decide +kernel, by decide +kernel, by decide +kernel⟩
  have two : SpinLine 2 (py"Spin component 2\n") :=
    ⟨⟨py" 2\n", rfl⟩, exInt (py"2"), [], (fields_iff _ _).2 (by decide +kernel), by decide +kernel, by decide +kernel, by decide +kernel⟩
  refine .cons ⟨_, _, [py"   -0.5\n", py"  1.5\n"], ⟨⟨_, rfl⟩, py"1", (fields_iff _ _).2 (by decide +kernel)⟩, one,
    .cons (f _ _ (by decide +kernel)) (.cons (f _ _ (by decide +kernel)) .nil), rfl⟩ ?_
  exact .cons ⟨_, _, [py"   2.5\n"], ⟨⟨_, rfl⟩, py"2", (fields_iff _ _).2 (by decide +kernel)⟩, one,
    .cons (f _ _ (by decide +kernel)) .nil, _, [py"  3.5\n"], two, .cons (f _ _ (by decide +kernel)) .nil, rfl⟩ .nil

example : ∃ rd fl : Numeral → F64, (∀ i ∈ exBandHead, Reads rd i.nums) ∧ Reads rd exBandCell.flatten ∧
    (∀ k ∈ exKs, Reads rd k.nums) ∧ Reads fl (exKs.map KPoint.weight) ∧
    parse_bands_file (exBandHeadLines.flatten ++ exBandCellLines ++ exKLines.flatten) =
      .ok (.dict ((.str (py"bands"), .list (exKs.map (KPoint.entry rd fl))) ::
        headerOf (py"Fermi energy") rd (exBandHead ++ [.cell exBandCell]))) :=
  C37_bands exBandHead exBandHeadLines exBandCell exBandCellLines exKs exKLines exBandHead_lines (by decide +kernel) exBandCell_lines
    (by decide +kernel) (by
      intro l hl
      simp [exBandCellLines] at hl
      rcases hl with rfl | rfl | rfl <;> exact ⟨_, _, rfl, by decide⟩)
    exKs_lines (by unfold KPoint.Ok; decide +kernel) (by decide +kernel) (by
      intro key n h
      simp [exBandHead] at h
      rw [h.1]; decide +kernel)

/-- The entries of the k-points of a result. -/
def bandsOf : PyM PyVal → Option PyVal
  | .ok (.dict d) => Dict.get? d (.str (py"bands"))
  | _ => none

/-- C37, against: an eigenvalue printed with an exponent, as a whole number or as asterisks is left out without an error. -/
theorem C37_dropped : ∀ w ∈ [py"  1.5e3\n", py"  1500\n", py"  *****\n"],
    bandsOf (parse_bands_file (exBandCellLines ++ [py"K-point 1 0.0 0.0 0.0 1.0\n", py"Spin component 1\n", py"  2.5\n", w])) =
    bandsOf (parse_bands_file (exBandCellLines ++ [py"K-point 1 0.0 0.0 0.0 1.0\n", py"Spin component 1\n", py"  2.5\n"])) ∧
    (bandsOf (parse_bands_file (exBandCellLines ++ [py"K-point 1 0.0 0.0 0.0 1.0\n", py"Spin component 1\n", py"  2.5\n"]))).isSome := by
  decide +kernel

end Verif.Props
