import Verif.Spec.Fortran
/-
What a writer puts into `.cst_esp` and `.epme_bin` files, and the data a reader should give back.
-/
namespace Verif.Spec

/-- Row of complex numbers along the third grid direction. -/
abbrev Row := List (F64 × F64)
/-- Plane: rows along the second direction. -/
abbrev Plane := List Row
/-- Grid: planes along the first direction. -/
abbrev Grid := List Plane

/-- Complex numbers on disk. -/
def encComplex (r : Row) : Bytes := r.flatMap fun z => encF64 z.1 ++ encF64 z.2

/-- Records of one plane with first index `nx`, rows numbered from `ny` on. -/
def planeRecords (nx ny : Nat) : Plane → List Bytes
  | [] => []
  | r :: rows => (encInt32 nx ++ encInt32 ny ++ encComplex r) :: planeRecords nx (ny + 1) rows

/-- Records of a grid whose planes are numbered from `nx` on. -/
def gridRecords (nx : Nat) : Grid → List Bytes
  | [] => []
  | p :: ps => planeRecords nx 1 p ++ gridRecords (nx + 1) ps

/-- All records of a `.cst_esp` file (`mgga = []` when that part is absent). -/
def espRecords (n_spins : Int) (grid : List Int) (esp mgga : Grid) : List Bytes :=
  encInt32 n_spins :: grid.flatMap encInt32 :: (gridRecords 1 esp ++ gridRecords 1 mgga)

/-- A row as the parser's user sees it. -/
def rowVal (r : Row) : PyVal := .tuple (r.map fun z => .complex z.1 z.2)
/-- A grid as the parser's user sees it. -/
def gridVal (g : Grid) : List PyVal := g.map fun p => .list (p.map rowVal)

/-- Fits in a signed 32-bit integer. -/
def I32 (i : Int) : Prop := -2 ^ 31 ≤ i ∧ i < 2 ^ 31
instance (i : Int) : Decidable (I32 i) := inferInstanceAs (Decidable (_ ∧ _))

/-! ### `.epme_bin` -/

/-- One ion. -/
structure EIon where
  index : Int
  /-- species label, ASCII, possibly padded -/
  label : Bytes
  pos : List F64

/-- One k-point. -/
structure EKpoint where
  ns : Int
  nk : Int
  n_bands : Int
  min_band : Int
  eigenvalues : List F64
  velocities : List F64

/-- One phonon. -/
structure EPhonon where
  nq : Int
  nb : Int
  nb2 : Int
  kpts : List Int
  frequencies : List F64
  modes : Row
  elements : Row

/-- Contents of an `.epme_bin` file. -/
structure EFile where
  file_type : Bytes
  version : Int
  header : Bytes
  n_spins : Int
  fermi : F64
  lattice : List F64
  ions : List EIon
  n_bands : Nat
  kpoints : List EKpoint
  phonons : List EPhonon

/-- Text as bytes. -/
def asciiBytes (s : Str) : Bytes := s.map (Fin.ofNat 256)

def encFloats (l : List F64) : Bytes := l.flatMap encF64
def ionRecords (a : EIon) : List Bytes := [encInt32 a.index, a.label, encFloats a.pos]
def kpointRecords (k : EKpoint) : List Bytes :=
  [encInt32 k.ns, encInt32 k.nk, encInt32 k.n_bands, encInt32 k.min_band, encFloats k.eigenvalues,
   encFloats k.velocities]
def phononRecords (p : EPhonon) : List Bytes :=
  [encInt32 p.nq, encInt32 p.nb, encInt32 p.nb2, p.kpts.flatMap encInt32, encFloats p.frequencies,
   encComplex p.modes, encComplex p.elements]

/-- All records of an `.epme_bin` file. `2 * phonons.length` k-points per spin are announced and
`n_bands²` matrix elements. -/
def epmeRecords (e : EFile) : List Bytes :=
  [e.file_type, encInt32 e.version, e.header, encInt32 e.n_spins, encF64 e.fermi] ++
  ([asciiBytes (py"ATOM"), encInt32 e.ions.length, encFloats e.lattice] ++
    e.ions.flatMap ionRecords) ++
  ([asciiBytes (py"KPOINT"), encInt32 (2 * e.phonons.length), encInt32 e.n_bands] ++
    e.kpoints.flatMap kpointRecords) ++
  ([asciiBytes (py"EPCOUPLING"), encInt32 e.phonons.length, encInt32 (e.n_bands * e.n_bands)] ++
    e.phonons.flatMap phononRecords)

def floatsVal (l : List F64) : PyVal := .tuple (l.map .float)

/-- Key of an ion: label without padding, index. -/
def ionKey (a : EIon) : Key := .tup [.str (Str.strip (a.label.map (·.val))), .int a.index]
def kpointKey (k : EKpoint) : Key := .tup [.int k.ns, .int k.nk]
def kpointVal (k : EKpoint) : PyVal :=
  .dict [(.str (py"n_bands"), .int k.n_bands), (.str (py"min_band"), .int k.min_band),
    (.str (py"eigenvalues"), floatsVal k.eigenvalues), (.str (py"velocities"), floatsVal k.velocities)]
def phononVal (p : EPhonon) : PyVal :=
  .dict [(.str (py"kpts"), .tuple (p.kpts.map .int)), (.str (py"frequencies"), floatsVal p.frequencies),
    (.str (py"modes"), rowVal p.modes), (.str (py"matrix_elements"), rowVal p.elements)]

/-- What the user should get. -/
def epmeResult (e : EFile) : Dict Key PyVal :=
  [(.str (py"version"), .int e.version), (.str (py"n_spins"), .int e.n_spins),
   (.str (py"fermi_energy"), .float e.fermi), (.str (py"n_ions"), .int e.ions.length),
   (.str (py"real_lattice"), floatsVal e.lattice),
   (.str (py"ions"), .dict (e.ions.map fun a => (ionKey a, floatsVal a.pos))),
   (.str (py"n_kpoint_pairs"), .int e.phonons.length), (.str (py"n_bands"), .int e.n_bands),
   (.str (py"kpoints"), .dict (e.kpoints.map fun k => (kpointKey k, kpointVal k))),
   (.str (py"phonons"), .list (e.phonons.map phononVal))]

/-- The file is consistent: counts as announced, integers in range, labels ASCII, no two ions or
k-points under one name. -/
structure EFile.Good (e : EFile) : Prop where
  ftype : ∀ b ∈ e.file_type, b.val < 128
  header : ∀ b ∈ e.header, b.val < 128
  version : I32 e.version
  spins : I32 e.n_spins
  spins_pos : 0 ≤ e.n_spins
  ions : ∀ a ∈ e.ions, I32 a.index ∧ ∀ b ∈ a.label, b.val < 128
  kpts : ∀ k ∈ e.kpoints, I32 k.ns ∧ I32 k.nk ∧ I32 k.n_bands ∧ I32 k.min_band
  phon : ∀ p ∈ e.phonons, I32 p.nq ∧ I32 p.nb ∧ I32 p.nb2 ∧ ∀ i ∈ p.kpts, I32 i
  n_ions : I32 e.ions.length
  n_kpoints : (e.kpoints.length : Int) = e.n_spins * (2 * e.phonons.length)
  n_kp : I32 (2 * e.phonons.length)
  n_bands : I32 (e.n_bands * e.n_bands)
  ion_keys : (e.ions.map ionKey).Nodup
  kpoint_keys : (e.kpoints.map kpointKey).Nodup

end Verif.Spec
