import Verif.Lemmas.Tipsy

/-!
# C226: particles of PKDGRAV3

Full statement (C226): reading a file in the tipsy format (a header with the numbers of particles, then the gas, dark and star particles, all words with the most significant
byte first) gives the numbers of the header and three tables with the particles; a file that does not hold the particles of its header raises.

False of the code: `np.fromfile` returns as many records as there are, so a file that is cut off anywhere after its header gives tables with fewer particles than the header
says, and a negative number reads the rest of the file.
-/

namespace Verif.Tipsy

/-- A gas particle, all properties as bit patterns. -/
structure Gas where
  (mass x y z vx vy vz rho temp hsmooth metals phi : ℕ)

/-- A dark matter particle. -/
structure Dark where
  (mass x y z vx vy vz eps phi : ℕ)

/-- A star particle. -/
structure Star where
  (mass x y z vx vy vz metals tform eps phi : ℕ)

/-- What a file holds. -/
structure Snapshot where
  (time n dims pad : ℕ)
  gas : List Gas
  dark : List Dark
  star : List Star

/-- The words of the particles, in the order of the format. -/
def Gas.words (g : Gas) : List ℕ := [g.mass, g.x, g.y, g.z, g.vx, g.vy, g.vz, g.rho, g.temp, g.hsmooth, g.metals, g.phi]
def Dark.words (g : Dark) : List ℕ := [g.mass, g.x, g.y, g.z, g.vx, g.vy, g.vz, g.eps, g.phi]
def Star.words (g : Star) : List ℕ := [g.mass, g.x, g.y, g.z, g.vx, g.vy, g.vz, g.metals, g.tform, g.eps, g.phi]

/-- The header of the format. -/
def headerBytes (time n dims ngas ndark nstar pad : ℕ) : List ℕ := big 8 time ++ [n, dims, ngas, ndark, nstar, pad].flatMap (big 4)

/-- The file of a snapshot. -/
def Snapshot.bytes (s : Snapshot) : List ℕ :=
  headerBytes s.time s.n s.dims s.gas.length s.dark.length s.star.length s.pad ++
    ((s.gas.flatMap fun g => g.words.flatMap (big 4)) ++ ((s.dark.flatMap fun g => g.words.flatMap (big 4)) ++ s.star.flatMap fun g => g.words.flatMap (big 4)))

/-- The words fit: eight bytes for the time, four for all others, and the numbers of particles are signed. -/
structure Snapshot.Fits (s : Snapshot) : Prop where
  time : s.time < 2 ^ 64
  words : s.n < 2 ^ 32 ∧ s.dims < 2 ^ 32 ∧ s.pad < 2 ^ 32
  ngas : s.gas.length < 2 ^ 31
  ndark : s.dark.length < 2 ^ 31
  nstar : s.star.length < 2 ^ 31
  gas : ∀ g ∈ s.gas, ∀ w ∈ g.words, w < 2 ^ 32
  dark : ∀ g ∈ s.dark, ∀ w ∈ g.words, w < 2 ^ 32
  star : ∀ g ∈ s.star, ∀ w ∈ g.words, w < 2 ^ 32

/-- The table of some particles with the given columns. -/
def table {P : Type} (cols : List (String × (P → ℕ))) (ps : List P) : Frame := ⟨cols.map (·.1), ps.map fun p => cols.map fun c => c.2 p⟩

def gasCols : List (String × (Gas → ℕ)) :=
  [("mass", (·.mass)), ("x", (·.x)), ("y", (·.y)), ("z", (·.z)), ("vx", (·.vx)), ("vy", (·.vy)), ("vz", (·.vz)), ("rho", (·.rho)), ("temp", (·.temp)),
    ("hsmooth", (·.hsmooth)), ("metals", (·.metals)), ("phi", (·.phi))]
def darkCols : List (String × (Dark → ℕ)) :=
  [("mass", (·.mass)), ("x", (·.x)), ("y", (·.y)), ("z", (·.z)), ("vx", (·.vx)), ("vy", (·.vy)), ("vz", (·.vz)), ("eps", (·.eps)), ("phi", (·.phi))]
def starCols : List (String × (Star → ℕ)) :=
  [("mass", (·.mass)), ("x", (·.x)), ("y", (·.y)), ("z", (·.z)), ("vx", (·.vx)), ("vy", (·.vy)), ("vz", (·.vz)), ("metals", (·.metals)), ("tform", (·.tform)),
    ("eps", (·.eps)), ("phi", (·.phi))]

/-- The header of a snapshot by name. -/
def Snapshot.header (s : Snapshot) : List (String × ℕ) :=
  [("time", s.time), ("N", s.n), ("Dims", s.dims), ("Ngas", s.gas.length), ("Ndark", s.dark.length), ("Nstar", s.star.length), ("pad", s.pad)]

theorem enc_four (t : DType) (ht : ∀ f ∈ t, f.2 = 4) (ws : List ℕ) (h : ws.length = t.length) : enc t ws = ws.flatMap (big 4) := by
  induction t generalizing ws with
  | nil => cases ws with
    | nil => rfl
    | cons n ws => simp at h
  | cons a t ih =>
    cases ws with
    | nil => simp at h
    | cons n ws =>
      obtain ⟨s, w⟩ := a
      have hw : w = 4 := ht (s, w) (by simp)
      rw [enc, List.flatMap_cons, hw, ih (fun f hf => ht f (by simp [hf])) ws (by simpa using h)]

theorem fit_four (t : DType) (ht : ∀ f ∈ t, f.2 = 4) (ws : List ℕ) (h : ws.length = t.length) (hw : ∀ w ∈ ws, w < 2 ^ 32) : Fit t ws := by
  induction t generalizing ws with
  | nil => cases ws with
    | nil => exact True.intro
    | cons n ws => simp at h
  | cons a t ih =>
    cases ws with
    | nil => simp at h
    | cons n ws =>
      obtain ⟨s, w⟩ := a
      have hw' : w = 4 := ht (s, w) (by simp)
      subst hw'
      refine ⟨?_, ih (fun f hf => ht f (by simp [hf])) ws (by simpa using h) fun w hw' => hw w (by simp [hw'])⟩
      have := hw n (by simp)
      omega

/-- What is read of some particles in a file that may end early. -/
theorem fromfile_particles {P : Type} (t : DType) (ht : ∀ f ∈ t, f.2 = 4) (h0 : 0 < itemsize t) (words : P → List ℕ) (hw : ∀ p, (words p).length = t.length) (ps : List P)
    (h : ∀ p ∈ ps, ∀ w ∈ words p, w < 2 ^ 32) (rest : List ℕ) (m : ℕ) :
    fromfile t ps.length (((ps.flatMap fun p => (words p).flatMap (big 4)) ++ rest).take m) =
      ((ps.take (m / itemsize t)).map words, rest.take (m - ps.length * itemsize t)) := by
  have h1 : (ps.flatMap fun p => (words p).flatMap (big 4)) = (ps.map words).flatMap (enc t) := by
    rw [List.flatMap_map]
    congr 1
    funext p
    exact (enc_four t ht _ (hw p)).symm
  have h2 := fromfile_take h0 (l := ps.map words) (t := t)
    (fun ws hws => by obtain ⟨p, hp, rfl⟩ := List.mem_map.mp hws; exact fit_four t ht _ (hw p) (h p hp)) rest m
  rw [List.length_map] at h2
  rw [h1, h2, List.map_take]

theorem signed32_small {w : ℕ} (h : w < 2 ^ 31) : signed32 w = w := by rw [signed32, if_pos h]

theorem headerBytes_eq (time n dims ngas ndark nstar pad : ℕ) :
    headerBytes time n dims ngas ndark nstar pad = enc headerType [time, n, dims, ngas, ndark, nstar, pad] := by
  simp [headerBytes, enc, headerType]

theorem headerBytes_length (time n dims ngas ndark nstar pad : ℕ) : (headerBytes time n dims ngas ndark nstar pad).length = 32 := by
  simp [headerBytes, big_length]

/-- The header is read if the file has at least its 32 bytes. -/
theorem readParticles_header {time n dims ngas ndark nstar pad : ℕ} (h : time < 2 ^ 64)
    (hw : ∀ w ∈ [n, dims, ngas, ndark, nstar, pad], w < 2 ^ 32) (rest : List ℕ) :
    readParticles (headerBytes time n dims ngas ndark nstar pad ++ rest) =
      (let gas := fromfile gasType (signed32 ngas) rest
       let dark := fromfile darkType (signed32 ndark) gas.2
       let star := fromfile starType (signed32 nstar) dark.2
       .ok ⟨[("time", time), ("N", n), ("Dims", dims), ("Ngas", ngas), ("Ndark", ndark), ("Nstar", nstar), ("pad", pad)],
         frame gasType gas.1, frame darkType dark.1, frame starType star.1⟩) := by
  have hf : Fit headerType [time, n, dims, ngas, ndark, nstar, pad] := by
    have := hw n (by simp); have := hw dims (by simp); have := hw ngas (by simp); have := hw ndark (by simp); have := hw nstar (by simp); have := hw pad (by simp)
    refine ⟨?_, ?_, ?_, ?_, ?_, ?_, ?_, True.intro⟩ <;> omega
  have h1 := fromfile_take (t := headerType) (by decide) (l := [[time, n, dims, ngas, ndark, nstar, pad]]) (by simpa using hf) rest (32 + rest.length)
  have h2 : (([[time, n, dims, ngas, ndark, nstar, pad]].flatMap (enc headerType)) ++ rest).take (32 + rest.length) =
      headerBytes time n dims ngas ndark nstar pad ++ rest := by
    rw [headerBytes_eq, List.take_of_length_le]
    · simp
    · rw [List.length_append, List.flatMap_singleton, enc_length hf]
      exact le_rfl
  have h3 : itemsize headerType = 32 := rfl
  have h4 : 32 + rest.length - 1 * 32 = rest.length := by omega
  have h5 : 1 ≤ (32 + rest.length) / 32 := by omega
  rw [h2, h3, List.length_singleton, h4, List.take_of_length_le (by simp), List.take_length] at h1
  unfold readParticles
  rw [show (1 : ℤ) = ((1 : ℕ) : ℤ) from rfl, h1]
  rfl

/-- What is read of the file of a snapshot, with other bytes after it, up to some place after the header. -/
theorem read_take (s : Snapshot) (h : s.Fits) (extra : List ℕ) (m : ℕ) (hm : 32 ≤ m) :
    readParticles ((s.bytes ++ extra).take m) = .ok ⟨s.header, table gasCols (s.gas.take ((m - 32) / 48)),
      table darkCols (s.dark.take ((m - 32 - s.gas.length * 48) / 36)),
      table starCols (s.star.take ((m - 32 - s.gas.length * 48 - s.dark.length * 36) / 44))⟩ := by
  have h1 := headerBytes_length s.time s.n s.dims s.gas.length s.dark.length s.star.length s.pad
  have hg := h.ngas
  have hd := h.ndark
  have hs := h.nstar
  rw [Snapshot.bytes, List.append_assoc, List.take_append, h1, List.take_of_length_le (by omega), readParticles_header h.time]
  · rw [signed32_small hg, signed32_small hd, signed32_small hs, List.append_assoc, List.append_assoc]
    simp only []
    rw [fromfile_particles gasType (by decide) (by decide) Gas.words (fun _ => rfl) s.gas h.gas]
    simp only []
    rw [fromfile_particles darkType (by decide) (by decide) Dark.words (fun _ => rfl) s.dark h.dark]
    simp only []
    rw [fromfile_particles starType (by decide) (by decide) Star.words (fun _ => rfl) s.star h.star]
    rfl
  · have := h.words
    simp only [List.mem_cons, List.not_mem_nil, or_false, forall_eq_or_imp, forall_eq]
    omega

theorem flat_length {P : Type} (words : P → List ℕ) (k : ℕ) (hw : ∀ p, (words p).length = k) (ps : List P) :
    (ps.flatMap fun p => (words p).flatMap (big 4)).length = ps.length * (k * 4) := by
  have : ∀ ws : List ℕ, (ws.flatMap (big 4)).length = ws.length * 4 := by
    intro ws
    induction ws with
    | nil => rfl
    | cons n ws ih => rw [List.flatMap_cons, List.length_append, ih, big_length, List.length_cons]; ring
  induction ps with
  | nil => simp
  | cons p ps ih => rw [List.flatMap_cons, List.length_append, ih, this, hw, List.length_cons]; ring

theorem bytes_length (s : Snapshot) : s.bytes.length = 32 + s.gas.length * 48 + s.dark.length * 36 + s.star.length * 44 := by
  rw [Snapshot.bytes, List.length_append, List.length_append, List.length_append, headerBytes_length, flat_length Gas.words 12 (fun _ => rfl),
    flat_length Dark.words 9 (fun _ => rfl), flat_length Star.words 11 (fun _ => rfl)]
  omega

/-- **C226** (partial: complete files, whatever follows the particles). -/
theorem C226_partial (s : Snapshot) (h : s.Fits) (extra : List ℕ) :
    readParticles (s.bytes ++ extra) = .ok ⟨s.header, table gasCols s.gas, table darkCols s.dark, table starCols s.star⟩ := by
  have hl := bytes_length s
  have h1 := read_take s h extra (s.bytes.length + extra.length) (by omega)
  rw [List.take_of_length_le (by simp)] at h1
  rw [h1, List.take_of_length_le, List.take_of_length_le, List.take_of_length_le]
  · rw [Nat.le_div_iff_mul_le (by decide)]; omega
  · rw [Nat.le_div_iff_mul_le (by decide)]; omega
  · rw [Nat.le_div_iff_mul_le (by decide)]; omega

/-- **C226**, files that end early: one that has its header gives the whole particles that are there, and never raises. -/
theorem C226_truncated (s : Snapshot) (h : s.Fits) (m : ℕ) (hm : 32 ≤ m) :
    ∃ g d t, readParticles (s.bytes.take m) = .ok ⟨s.header, table gasCols (s.gas.take g), table darkCols (s.dark.take d), table starCols (s.star.take t)⟩ ∧
      g = (m - 32) / 48 ∧ d = (m - 32 - s.gas.length * 48) / 36 ∧ t = (m - 32 - s.gas.length * 48 - s.dark.length * 36) / 44 := by
  refine ⟨_, _, _, ?_, rfl, rfl, rfl⟩
  have := read_take s h [] m hm
  rwa [List.append_nil] at this

/-- **C226** is false of the code: whatever the snapshot, losing the last byte of the file loses a star and raises nothing, while the header still counts it. -/
theorem C226_false (s : Snapshot) (h : s.Fits) (hs : s.star ≠ []) :
    ∃ d, readParticles s.bytes.dropLast = .ok d ∧ d.star = table starCols s.star.dropLast ∧ d.header.lookup "Nstar" = some s.star.length := by
  have hl := bytes_length s
  have hp := List.length_pos_iff.mpr hs
  have h1 := read_take s h [] (s.bytes.length - 1) (by omega)
  rw [List.append_nil, ← List.dropLast_eq_take] at h1
  refine ⟨_, h1, ?_, rfl⟩
  show table starCols _ = _
  rw [List.dropLast_eq_take]
  congr 2
  omega

/-- **C226**, headers: a file with fewer than 32 bytes raises. -/
theorem C226_header (file : List ℕ) (h : file.length < 32) : readParticles file = .error .index := by
  have h1 : file.length / itemsize headerType = 0 := Nat.div_eq_of_lt h
  simp [readParticles, fromfile, h1, records]

/-- **C226**, negative numbers: with a negative number of gas particles all the rest of the file is taken for gas, and the dark matter is lost. -/
theorem C226_negative {time n dims ngas ndark nstar pad : ℕ} (h : time < 2 ^ 64) (hw : ∀ w ∈ [n, dims, ngas, ndark, nstar, pad], w < 2 ^ 32) (hn : 2 ^ 31 ≤ ngas)
    (dark : List Dark) :
    ∃ d, readParticles (headerBytes time n dims ngas ndark nstar pad ++ dark.flatMap fun g => g.words.flatMap (big 4)) = .ok d ∧
      d.gas.rows.length = 3 * dark.length / 4 ∧ d.dark.rows.length ≤ 1 := by
  have hr : ∀ t k bytes, (records t k bytes).length = k := by
    intro t k
    induction k with
    | zero => intro bytes; rfl
    | succ k ih => intro bytes; rw [records, List.length_cons, ih]
  have hf : ∀ t c bytes, (fromfile t c bytes).1.length ≤ bytes.length / itemsize t := by
    intro t c bytes
    simp only [fromfile]
    split
    · exact (hr _ _ _).le
    · split
      · rw [hr]; assumption
      · exact (hr _ _ _).le
  have hs : signed32 ngas < 0 := by
    have := hw ngas (by simp)
    rw [signed32, if_neg (by omega)]
    omega
  have hl := flat_length Dark.words 9 (fun _ => rfl) dark
  have hg : itemsize gasType = 48 := rfl
  have hd : itemsize darkType = 36 := rfl
  refine ⟨_, readParticles_header h hw _, ?_, ?_⟩
  · simp only [frame, fromfile, if_pos hs, hr, hl, hg]
    omega
  · refine (hf _ _ _).trans ?_
    simp only [fromfile, if_pos hs, List.length_drop, hl, hg, hd]
    omega

/-- A snapshot with one particle of each kind. -/
def small : Snapshot := ⟨7, 3, 3, 0, [⟨1, 2, 3, 4, 5, 6, 7, 8, 9, 10, 11, 12⟩], [⟨21, 22, 23, 24, 25, 26, 27, 28, 2 ^ 31⟩], [⟨31, 32, 33, 34, 35, 36, 37, 38, 39, 40, 41⟩]⟩

theorem small_fits : small.Fits := by
  constructor <;> simp [small, Gas.words, Dark.words, Star.words]

/-- The hypotheses of `C226_partial`. -/
example : ∃ d, readParticles (small.bytes ++ [1, 2, 3]) = .ok d ∧ d.star = ⟨["mass", "x", "y", "z", "vx", "vy", "vz", "metals", "tform", "eps", "phi"],
    [[31, 32, 33, 34, 35, 36, 37, 38, 39, 40, 41]]⟩ := ⟨_, C226_partial small small_fits _, rfl⟩

/-- The hypotheses of `C226_truncated`: the file ends within the dark matter. -/
example : readParticles (small.bytes.take 100) = .ok ⟨small.header, table gasCols small.gas, table darkCols [], table starCols []⟩ := by
  obtain ⟨g, d, t, h, hg, hd, ht⟩ := C226_truncated small small_fits 100 (by norm_num)
  have hg' : g = 1 := hg
  have hd' : d = 0 := hd
  have ht' : t = 0 := ht
  subst hg' hd' ht'
  exact h

/-- The hypotheses of `C226_false`. -/
example : small.Fits ∧ small.star ≠ [] := ⟨small_fits, by simp [small]⟩

/-- The hypotheses of `C226_header`. -/
example : readParticles [0, 0, 0] = .error .index := C226_header _ (by decide)

/-- The hypotheses of `C226_negative`: four dark matter particles are read as three gas particles. -/
example : ∃ d, readParticles (headerBytes 0 4 3 (2 ^ 32 - 1) 4 0 0 ++ (List.replicate 4 (⟨1, 2, 3, 4, 5, 6, 7, 8, 9⟩ : Dark)).flatMap fun g => g.words.flatMap (big 4)) = .ok d ∧
    d.gas.rows.length = 3 * 4 / 4 ∧ d.dark.rows.length ≤ 1 := C226_negative (by norm_num) (by simp) (by norm_num) _

end Verif.Tipsy
