import Verif.Lemmas.AMap
import Verif.Spec.Package
import Mathlib.Data.List.Dedup
import Mathlib.Data.List.Induction

/-!
# C04, C05: packages are maps, saving and reopening loses nothing
-/

namespace PptRs.Props

open PptRs PptRs.Spec

theorem runPkg_append (a b : List PkgOp) (p : Package) :
    runPkg (a ++ b) p = runPkg b (runPkg a p) := by
  induction a generalizing p with
  | nil => rfl
  | cons o a ih => cases o <;> simp [runPkg, ih]

theorem runPkg_ok (ops : List PkgOp) (p : Package) (h : AMap.Ok p) : AMap.Ok (runPkg ops p) := by
  induction ops generalizing p with
  | nil => exact h
  | cons o ops ih =>
    cases o with
    | add path b => exact ih _ (h.insert path b)
    | remove path => exact ih _ (h.remove path)

/-- **C04**: after any history of calls, a part has the content of the newest `add_part` for
its path that no newer `remove_part` followed. -/
theorem C04_get_last_write (ops : List PkgOp) (path : Str) :
    (runPkg ops Package.new).getPart path = lastWrite path ops.reverse := by
  induction ops using List.reverseRecOn with
  | nil => rfl
  | append_singleton ops o ih =>
    rw [runPkg_append, List.reverse_append]
    cases o with
    | add p b =>
      simp only [runPkg, Package.addPart, Package.getPart, List.reverse_singleton,
        List.singleton_append, lastWrite] at *
      rw [AMap.get_insert, ih]
      by_cases h : path = p
      · simp [h]
      · have : ¬ p = path := fun e => h e.symm
        simp [h, this]
    | remove p =>
      simp only [runPkg, Package.removePart, Package.getPart, List.reverse_singleton,
        List.singleton_append, lastWrite] at *
      rw [AMap.get_remove, ih]
      by_cases h : path = p
      · simp [h]
      · have : ¬ p = path := fun e => h e.symm
        simp [h, this]

/-- **C04**: `has_part` says whether `get_part` finds something. -/
theorem C04_has_iff_get (p : Package) (path : Str) :
    p.hasPart path = (p.getPart path).isSome := AMap.has_eq p path

/-- **C04**: `remove_part` returns the content the part had. -/
theorem C04_remove_returns (ops : List PkgOp) (path : Str) :
    ((runPkg ops Package.new).removePart path).2 = lastWrite path ops.reverse :=
  C04_get_last_write ops path

/-- **C04**: the part count is the number of distinct paths that are live. -/
theorem C04_count (ops : List PkgOp) :
    (runPkg ops Package.new).partCount =
      ((ops.map PkgOp.path).dedup.filter fun q => (lastWrite q ops.reverse).isSome).length := by
  have hok := runPkg_ok ops Package.new AMap.Ok_nil
  have hperm : (runPkg ops Package.new).partPaths.Perm
      ((ops.map PkgOp.path).dedup.filter fun q => (lastWrite q ops.reverse).isSome) := by
    rw [List.perm_ext_iff_of_nodup (l₁ := (runPkg ops Package.new).partPaths) hok ((List.nodup_dedup _).filter _)]
    intro q
    have h1 : q ∈ (runPkg ops Package.new).partPaths ↔ (lastWrite q ops.reverse).isSome := by
      rw [← C04_get_last_write]
      exact (AMap.get_isSome_iff _ q).symm
    have h2 : ∀ l : List PkgOp, (lastWrite q l).isSome → q ∈ l.map PkgOp.path := by
      intro l
      induction l with
      | nil => simp [lastWrite]
      | cons o l ih =>
        cases o with
        | add p b =>
          simp only [lastWrite, List.map_cons, PkgOp.path, List.mem_cons]
          split
          · rename_i h; intro _; exact Or.inl h.symm
          · intro h; exact Or.inr (ih h)
        | remove p =>
          simp only [lastWrite, List.map_cons, PkgOp.path, List.mem_cons]
          split
          · simp
          · intro h; exact Or.inr (ih h)
    rw [List.mem_filter, List.mem_dedup]
    constructor
    · intro h
      refine ⟨?_, h1.mp h⟩
      simpa using h2 _ (h1.mp h)
    · intro h; exact h1.mpr h.2
  have := hperm.length_eq
  simpa [Package.partPaths, AMap.keys, Package.partCount] using this

/-- A history that overwrites, removes and re-adds. -/
example :
    let ops : List PkgOp :=
      [.add c!"a" [1], .add c!"b" [2], .add c!"a" [3], .remove c!"b", .add c!"c" [4], .remove c!"c",
       .add c!"c" [5]]
    (runPkg ops Package.new).getPart c!"a" = some [3] ∧
      (runPkg ops Package.new).getPart c!"b" = none ∧ (runPkg ops Package.new).partCount = 2 := by
  decide

/-! ## C05 -/

theorem saveWriter_eq (p : Package) : p.saveWriter = p := by
  have : ∀ (l acc : List (Str × Bytes)), l.foldl (fun out e => out ++ [(e.1, e.2)]) acc = acc ++ l := by
    intro l
    induction l with
    | nil => simp
    | cons e l ih => intro acc; simp [ih]
  simpa [Package.saveWriter] using this p []

theorem openReader_get_aux (archive : List (Str × Bytes)) (p0 : Package) (path : Str)
    (hd : Package.isDirName path = false) :
    (archive.foldl (fun p e => if Package.isDirName e.1 then p else AMap.insert p e.1 e.2) p0).get path =
      (lastEntry path archive).or (AMap.get p0 path) := by
  induction archive generalizing p0 with
  | nil => simp [lastEntry]
  | cons e l ih =>
    rw [List.foldl_cons, ih]
    by_cases h : e.1 = path
    · have hl : lastEntry path (e :: l) = (lastEntry path l).or (some e.2) := by
        simp only [lastEntry, List.filter_cons, h, decide_true, if_true]
        cases hf : List.filter (fun e => decide (e.1 = path)) l with
        | nil => simp
        | cons x xs =>
          rw [List.getLast?_cons_cons, List.getLast?_eq_some_getLast (List.cons_ne_nil x xs)]
          rfl
      simp only [h, hd, Bool.false_eq_true, if_false, AMap.get_insert, if_true, hl]
      cases lastEntry path l <;> simp
    · have hl : lastEntry path (e :: l) = lastEntry path l := by
        simp [lastEntry, h]
      rw [hl]
      have : ¬ path = e.1 := fun h' => h h'.symm
      split <;> simp [AMap.get_insert, this]

/-- **C05**: opening an archive gives each file name the content of its last entry. -/
theorem C05_open_last_entry (archive : List (Str × Bytes)) (path : Str)
    (hd : Package.isDirName path = false) :
    (Package.openReader archive).getPart path = lastEntry path archive := by
  have := openReader_get_aux archive [] path hd
  simpa [Package.openReader, Package.getPart, AMap.get_nil] using this

/-- **C05** (part): saving a package reached by any history, in whatever order the hash map
enumerates its parts, and opening the result gives every path the content it had. Missing:
paths that end in a slash, see `C05_roundtrip_violated`. -/
theorem C05_roundtrip_partial (ops : List PkgOp) (entries : List (Str × Bytes))
    (horder : (runPkg ops Package.new).Perm entries)
    (hd : ∀ path ∈ ops.map PkgOp.path, Package.isDirName path = false) (path : Str) :
    (Package.openReader (Package.saveWriter entries)).getPart path =
      (runPkg ops Package.new).getPart path := by
  have hok := runPkg_ok ops Package.new AMap.Ok_nil
  have hok' : AMap.Ok entries := (horder.map _).nodup_iff.mp hok
  rw [saveWriter_eq]
  have key : ∀ q ∈ AMap.keys (runPkg ops Package.new), q ∈ ops.map PkgOp.path := by
    intro q hq
    have : ∀ (ops : List PkgOp) (p : Package), q ∈ AMap.keys (runPkg ops p) →
        q ∈ AMap.keys p ∨ q ∈ ops.map PkgOp.path := by
      intro ops
      induction ops with
      | nil => intro p h; exact Or.inl h
      | cons o ops ih =>
        intro p h
        cases o with
        | add r b =>
          rcases ih _ h with h | h
          · rw [Package.addPart, AMap.keys_insert] at h
            split at h
            · exact Or.inl h
            · rcases List.mem_append.mp h with h | h
              · exact Or.inl h
              · right; simp only [List.mem_singleton] at h; simp [PkgOp.path, h]
          · right; simp only [List.map_cons, List.mem_cons]; exact Or.inr h
        | remove r =>
          rcases ih _ h with h | h
          · left
            simp only [Package.removePart, AMap.remove, AMap.keys, List.mem_map,
              List.mem_filter] at h ⊢
            obtain ⟨e, ⟨he, _⟩, rfl⟩ := h
            exact ⟨e, he, rfl⟩
          · right; simp only [List.map_cons, List.mem_cons]; exact Or.inr h
    rcases this ops _ hq with h | h
    · simp [Package.new, AMap.keys] at h
    · exact h
  by_cases hdir : Package.isDirName path = true
  · have h1 : (runPkg ops Package.new).getPart path = none := by
      unfold Package.getPart
      rw [AMap.get_eq_none_iff]
      intro h
      have := hd path (key path h)
      rw [this] at hdir; cases hdir
    rw [h1]
    unfold Package.getPart
    rw [AMap.get_eq_none_iff]
    have : ∀ (l : List (Str × Bytes)) (p0 : Package), path ∉ AMap.keys p0 → path ∉ AMap.keys
        (l.foldl (fun p e => if Package.isDirName e.1 then p else AMap.insert p e.1 e.2) p0) := by
      intro l
      induction l with
      | nil => intro p0 h; exact h
      | cons e l ih =>
        intro p0 h
        rw [List.foldl_cons]
        apply ih
        split
        · exact h
        · rename_i hne
          rw [AMap.keys_insert]
          split
          · exact h
          · rw [List.mem_append, List.mem_singleton]
            rintro (h' | h')
            · exact h h'
            · rw [h'] at hdir; exact hne hdir
    exact this entries [] (by simp [AMap.keys])
  · rw [C05_open_last_entry _ _ (by simpa using hdir)]
    unfold Package.getPart
    rw [AMap.get_perm hok horder]
    clear horder key hok
    induction entries with
    | nil => rfl
    | cons e l ih =>
      unfold AMap.Ok at hok' ih
      rw [List.map_cons, List.nodup_cons] at hok'
      rw [AMap.get_cons, ← ih hok'.2]
      by_cases h : e.1 = path
      · have : (l.filter fun e => e.1 = path) = [] := by
          rw [List.filter_eq_nil_iff]
          intro a ha hh
          apply hok'.1
          rw [List.mem_map]
          exact ⟨a, ha, by rw [h]; simpa using hh⟩
        simp [lastEntry, h, this]
      · simp [lastEntry, h]

/-- A three-part package saved in a different order. -/
example :
    let ops : List PkgOp := [.add c!"a.xml" [1], .add c!"b/c.xml" [2, 3], .add c!"a.xml" [4]]
    let entries : List (Str × Bytes) := [(c!"b/c.xml", [2, 3]), (c!"a.xml", [4])]
    (runPkg ops Package.new).Perm entries ∧
      (∀ path ∈ ops.map PkgOp.path, Package.isDirName path = false) := by
  decide

/-- **C05** fails as stated: a part whose path ends in a slash is written but skipped as a
directory when the archive is opened. -/
theorem C05_roundtrip_violated :
    ∃ p : Package, AMap.Ok p ∧ p.getPart c!"a/" = some [1] ∧
      (Package.openReader p.saveWriter).getPart c!"a/" = none :=
  ⟨[(c!"a/", [1])], by simp [AMap.Ok], by decide, by decide⟩

end PptRs.Props
