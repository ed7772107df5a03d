import Verif.Model.FileFormat

/-! # C46: the format is chosen by the extension -/

namespace GTMesh.FileFormat

/-- The extension of each format. -/
def extension : Format → List Char
  | .vtk => ['.', 'v', 't', 'k']
  | .fpma => ['.', 'f', 'p', 'm', 'a']

theorem ext_eq (f : Format) : f.ext = extension f := by cases f <;> rfl

/-- The path ends with the extension (`.vtk` or `.fpma`) of the format. -/
def Ends (f : Format) (path : List Char) : Prop := extension f <:+ path

/-- The formats that exist in a dimension: in the plane there is only VTK. -/
def Exists (dim : Nat) : Format → Prop
  | .vtk => dim = 2 ∨ dim = 3
  | .fpma => dim = 3

theorem findLastDot_none {path : List Char} : findLastDot path = none ↔ '.' ∉ path := by
  induction path with
  | nil => simp [findLastDot]
  | cons c cs ih =>
    cases h : findLastDot cs with
    | none =>
      simp only [findLastDot, h, List.mem_cons, not_or, ← ih, and_true]
      by_cases hc : c = '.'
      · simp [hc]
      · rw [if_neg hc]; simp [Ne.symm hc]
    | some n =>
      have hm : '.' ∈ cs := Decidable.byContradiction fun hn => by rw [ih.mpr hn] at h; cases h
      simp [findLastDot, h, hm]

theorem findLastDot_some {path : List Char} {n : Nat} (h : findLastDot path = some n) :
    ∃ a b, path = a ++ '.' :: b ∧ a.length = n ∧ '.' ∉ b := by
  induction path generalizing n with
  | nil => simp [findLastDot] at h
  | cons c cs ih =>
    cases h1 : findLastDot cs with
    | none =>
      simp only [findLastDot, h1] at h
      by_cases hc : c = '.'
      · rw [if_pos hc] at h
        exact ⟨[], cs, by simp [hc], by simpa using h, findLastDot_none.mp h1⟩
      · rw [if_neg hc] at h; cases h
    | some k =>
      simp only [findLastDot, h1, Option.some.injEq] at h
      obtain ⟨a, b, e1, e2, e3⟩ := ih h1
      exact ⟨c :: a, b, by simp [e1], by simp [e2, h], e3⟩

/-- `checkExtension` of a path with a dot tells whether the path ends with the extension. -/
theorem checkExtension_dot (f : Format) {path : List Char} (h : '.' ∈ path) :
    ∃ b, checkExtension path (f.ext) = .ok b ∧ (b = true ↔ Ends f path) := by
  cases h1 : findLastDot path with
  | none => exact absurd h (findLastDot_none.mp h1)
  | some n =>
    refine ⟨decide (path.drop n = f.ext), by simp only [checkExtension, h1], ?_⟩
    obtain ⟨a, b, e1, e2, e3⟩ := findLastDot_some h1
    rw [decide_eq_true_iff]
    have hd : path.drop n = '.' :: b := by rw [e1, ← e2, List.drop_left]
    rw [hd]
    rw [Ends, ← ext_eq]
    constructor
    · intro h; exact ⟨a, by rw [← h, e1]⟩
    · rintro ⟨a', h'⟩
      obtain ⟨x, hx⟩ : ∃ x, f.ext = '.' :: x ∧ '.' ∉ x := by cases f <;> exact ⟨_, rfl, by decide⟩
      rw [hx.1] at h' ⊢
      rw [e1] at h'
      rcases List.append_eq_append_iff.mp h' with ⟨c, hc1, hc2⟩ | ⟨c, hc1, hc2⟩
      · cases c with
        | nil => simpa using hc2.symm
        | cons y c =>
          simp only [List.cons_append, List.cons.injEq] at hc2
          exact absurd (by rw [hc2.2]; simp) hx.2
      · cases c with
        | nil => simpa using hc2
        | cons y c =>
          simp only [List.cons_append, List.cons.injEq] at hc2
          exact absurd (by rw [hc2.2]; simp) e3

theorem checkExtension_noDot (f : Format) {path : List Char} (h : '.' ∉ path) :
    checkExtension path (f.ext) = .throw .outOfRange := by
  simp only [checkExtension, findLastDot_none.mpr h]

theorem ends_dot {f : Format} {path : List Char} (h : Ends f path) : '.' ∈ path :=
  h.subset (by cases f <;> decide)

theorem ends_unique {f g : Format} {path : List Char} (hf : Ends f path) (hg : Ends g path) : f = g := by
  have h : extension f <:+ extension g ∨ extension g <:+ extension f := List.suffix_or_suffix_of_suffix hf hg
  cases f <;> cases g <;> first | rfl | (exfalso; revert h; decide)

theorem checkExtension_ends (f g : Format) {path : List Char} (h : Ends f path) :
    checkExtension path (g.ext) = .ok (decide (g = f)) := by
  obtain ⟨b, hb, hi⟩ := checkExtension_dot g (ends_dot h)
  rw [hb]
  by_cases hg : g = f
  · subst hg; rw [hi.mpr h]; simp
  · have : b ≠ true := fun hbt => hg (ends_unique (hi.mp hbt) h)
    simp only [Bool.not_eq_true] at this
    simp [this, hg]

theorem checkExtension_other (g : Format) {path : List Char} (hd : '.' ∈ path) (h : ∀ f, ¬ Ends f path) :
    checkExtension path (g.ext) = .ok false := by
  obtain ⟨b, hb, hi⟩ := checkExtension_dot g hd
  rw [hb]
  cases b with
  | false => rfl
  | true => exact absurd (hi.mp rfl) (h g)

theorem writeNew_ends (f : Format) (dim : Nat) (hdim : dim = 2 ∨ dim = 3) (hf : Exists dim f) {path : List Char} (h : Ends f path) :
    writeNew dim true path = .ok (some f, .written f) := by
  have hv := checkExtension_ends f .vtk h
  have hp := checkExtension_ends f .fpma h
  cases f with
  | vtk =>
    rcases hdim with rfl | rfl <;> simp [writeNew, writeWith, hv, hp]
  | fpma =>
    have : dim = 3 := hf
    subst this
    simp [writeNew, writeWith, hv, hp]

/-- C46, writing. A path that ends with `.vtk` or (in space) `.fpma` is written in that format, whatever writer was used
before: no writer, or a writer of either format. -/
theorem C46_write (f : Format) (dim : Nat) (hdim : dim = 2 ∨ dim = 3) (hf : Exists dim f) (writer : Option Format)
    (path : List Char) (h : Ends f path) : write dim true path writer = .ok (some f, .written f) := by
  have hn := writeNew_ends f dim hdim hf h
  cases writer with
  | none => exact hn
  | some g =>
    have hg := checkExtension_ends f g h
    simp only [write, writeWith]
    rw [hg, hn]
    by_cases hgf : g = f
    · simp [hgf]
    · simp [hgf]

/-- C46, refusal: a path without a dot is refused with an exception. -/
theorem C46_no_dot (dim : Nat) (writer : Option Format) (path : List Char) (h : '.' ∉ path) :
    write dim true path writer = .throw .outOfRange := by
  have hv := checkExtension_noDot .vtk h
  have hp := checkExtension_noDot .fpma h
  cases writer with
  | none => simp [write, writeNew, hv]
  | some g => cases g <;> simp [write, writeWith, hv, hp]

/-- C46, refusal: nothing is written to a file that cannot be opened, in any format. -/
theorem C46_not_opened (f : Format) (dim : Nat) (hdim : dim = 2 ∨ dim = 3) (hf : Exists dim f) (writer : Option Format)
    (path : List Char) (h : Ends f path) : write dim false path writer = .throw .runtimeError := by
  have hv := checkExtension_ends f .vtk h
  have hp := checkExtension_ends f .fpma h
  cases writer with
  | some g => simp [write, writeWith]
  | none =>
    cases f with
    | vtk => simp [write, writeNew, writeWith, hv]
    | fpma =>
      have : dim = 3 := hf
      subst this
      simp [write, writeNew, writeWith, hv, hp]

/-- The property fails for other extensions: `write` returns normally with a null writer. Without a writer the file is not
touched; with a writer its content is destroyed. -/
theorem C46_other_extension_violated (dim : Nat) (path : List Char) (hd : '.' ∈ path) (h : ∀ f, ¬ Ends f path) :
    write dim true path none = .ok (none, .untouched) ∧
    ∀ g, write dim true path (some g) = .ok (none, .emptied) := by
  have hv := checkExtension_other .vtk hd h
  have hp := checkExtension_other .fpma hd h
  have hn : writeNew dim true path = .ok (none, .untouched) := by simp [writeNew, hv, hp]
  refine ⟨hn, fun g => ?_⟩
  have hg := checkExtension_other g hd h
  simp only [write, writeWith]
  rw [hg, hn]
  simp

example : (∀ f, ¬ Ends f "mesh.stl".toList) ∧ '.' ∈ "mesh.stl".toList :=
  ⟨fun f => by cases f <;> (show ¬ (_ <:+ _)) <;> decide, by decide⟩

/-- C46, reading (part): the reader is the one of the extension when no other extension occurs in the path. Missing: the
property for all paths, see `C46_load_violated`. -/
theorem C46_load_partial (f : Format) (dim : Nat) (hdim : dim = 2 ∨ dim = 3) (hf : Exists dim f) (path : List Char)
    (h : Ends f path) (ho : ∀ g, g ≠ f → ¬ extension g <:+: path) : load dim true path = .ok [f] := by
  have hi : extension f <:+: path := h.isInfix
  cases f with
  | vtk =>
    have h2 := ho .fpma (by decide)
    simp [load, contains, ext_eq, hi, h2]
  | fpma =>
    have h2 := ho .vtk (by decide)
    have h3 : dim = 3 := hf
    subst h3
    simp [load, contains, ext_eq, hi, h2]

/-- C46, reading, for all paths: exactly the readers are run whose extension occurs in the path and which exist in the dimension, each one once, VTK
first. -/
theorem C46_load_which (dim : Nat) (hdim : dim = 2 ∨ dim = 3) (path : List Char) : ∃ fs, load dim true path = .ok fs ∧
    fs.Pairwise (fun f g => f = .vtk ∧ g = .fpma) ∧ ∀ f, f ∈ fs ↔ Exists dim f ∧ extension f <:+: path := by
  refine ⟨(if contains Format.vtk.ext path then [.vtk] else []) ++ (if dim = 3 ∧ contains Format.fpma.ext path = true then [.fpma] else []), rfl, ?_, ?_⟩
  · by_cases h1 : contains Format.vtk.ext path = true <;> by_cases h2 : dim = 3 ∧ contains Format.fpma.ext path = true <;> simp [h1, h2]
  · intro f
    cases f with
    | vtk => simp [contains, ext_eq, Exists, hdim]
    | fpma => simp [contains, ext_eq, Exists]

example : Exists 2 .vtk ∧ ¬ Exists 2 .fpma := ⟨.inl rfl, by show ¬ (2 = 3); decide⟩

/-- C46, reading: when no extension occurs in the path no reader is run, and the null reader is returned without an
exception; a file that cannot be opened is refused. -/
theorem C46_load_other (dim : Nat) (path : List Char) : load dim false path = .throw .runtimeError ∧
    ((∀ f : Format, ¬ extension f <:+: path) → load dim true path = .ok []) := by
  refine ⟨by simp [load], fun h => ?_⟩
  have h1 := h .vtk
  have h2 := h .fpma
  simp [load, contains, ext_eq, h1, h2]

/-- The property fails: `mesh.vtk.bak` and `old.vtk/mesh.fpma` go to the VTK reader, the second one to both. -/
theorem C46_load_violated : load 3 true "mesh.vtk.bak".toList = .ok [.vtk] ∧ (∀ f, ¬ Ends f "mesh.vtk.bak".toList) ∧
    load 3 true "old.vtk/mesh.fpma".toList = .ok [.vtk, .fpma] ∧ Ends .fpma "old.vtk/mesh.fpma".toList :=
  ⟨by decide +kernel, fun f => by cases f <;> (show ¬ (_ <:+ _)) <;> decide +kernel, by decide +kernel, by show _ <:+ _; decide +kernel⟩

/-- What is written under a path with a single dot can be loaded by the same path. -/
theorem C46_write_load (f : Format) (dim : Nat) (hdim : dim = 2 ∨ dim = 3) (hf : Exists dim f) (writer : Option Format)
    (name : List Char) (hn : '.' ∉ name) :
    write dim true (name ++ extension f) writer = .ok (some f, .written f) ∧ load dim true (name ++ extension f) = .ok [f] := by
  have he : Ends f (name ++ extension f) := List.suffix_append _ _
  refine ⟨C46_write f dim hdim hf writer _ he, C46_load_partial f dim hdim hf _ he fun g hg hi => ?_⟩
  obtain ⟨a, b, hab⟩ := hi
  have key : ∀ (x y : List Char), extension g = '.' :: x → extension f = '.' :: y → '.' ∉ y → False := by
    intro x y hx hy hyd
    rw [hx, hy, List.append_assoc] at hab
    have hany : a = name ∧ ('.' :: x) ++ b = '.' :: y := by
      rcases List.append_eq_append_iff.mp hab with ⟨c, h1, h2⟩ | ⟨c, h1, h2⟩
      · cases c with
        | nil => exact ⟨by simpa using h1.symm, by simpa using h2⟩
        | cons z c =>
          exfalso
          simp only [List.cons_append, List.cons.injEq] at h2
          refine hn ?_
          rw [h1, h2.1]; simp
      · cases c with
        | nil => exact ⟨by simpa using h1, by simpa using h2.symm⟩
        | cons z c =>
          exfalso
          simp only [List.cons_append, List.cons.injEq] at h2
          refine hyd ?_
          rw [h2.2]; simp
    have hpre : extension g <+: extension f := ⟨b, by rw [hx, hy]; exact hany.2⟩
    cases f <;> cases g <;> first | exact hg rfl | (revert hpre; decide)
  obtain ⟨x, hx⟩ : ∃ x, extension g = '.' :: x := by cases g <;> exact ⟨_, rfl⟩
  obtain ⟨y, hy, hyd⟩ : ∃ y, extension f = '.' :: y ∧ '.' ∉ y := by cases f <;> exact ⟨_, rfl, by decide⟩
  exact key x y hx hy hyd

example : write 3 true "mesh.fpma".toList (some .vtk) = .ok (some .fpma, .written .fpma) ∧
    load 3 true "mesh.fpma".toList = .ok [.fpma] := C46_write_load .fpma 3 (.inr rfl) rfl (some .vtk) "mesh".toList (by decide)

end GTMesh.FileFormat
