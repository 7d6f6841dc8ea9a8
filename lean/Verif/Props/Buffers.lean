import Verif.Lemmas.Buffers
import Verif.Model.Files

/-!
# C113: the files are created in the directory that the user asks for

The files of the buffers are inside the output directory, for any directory, when the packages don't contain `.` or `..`.
A service whose name is made of dots puts files in other directories.
-/

namespace Verif.Buffers

open GoPath

variable {ρ φ : Type}

/-- When the builder of Go buffers fails, and the message: the first of the mandatory parts that is missing. -/
theorem c113_go_error_iff (b : GoBuilder ρ φ) (message : Text) :
    b.build = .error message ↔
      (b.reporter = none ∧ message = t!"reporter is mandatory") ∨
      (b.reporter ≠ none ∧ b.output = [] ∧ message = t!"output is mandatory") ∨
      (b.reporter ≠ none ∧ b.output ≠ [] ∧ b.packages = none ∧ message = t!"packages calculator is mandatory") ∨
      (b.reporter ≠ none ∧ b.output ≠ [] ∧ b.packages ≠ none ∧ b.file = [] ∧ message = t!"file is mandatory") := by
  rw [GoBuilder.build]
  cases b.reporter <;> cases b.packages <;> by_cases ho : b.output = [] <;> by_cases hf : b.file = [] <;>
    simp [ho, hf, eq_comm]

/-- When the builder of documentation buffers fails, and the message. -/
theorem c113_doc_error_iff (b : DocBuilder ρ φ) (message : Text) :
    b.build = .error message ↔
      (b.reporter = none ∧ message = t!"reporter is mandatory") ∨
      (b.reporter ≠ none ∧ b.output = [] ∧ message = t!"output is mandatory") ∨
      (b.reporter ≠ none ∧ b.output ≠ [] ∧ b.file = [] ∧ message = t!"file is mandatory") := by
  rw [DocBuilder.build]
  cases b.reporter <;> by_cases ho : b.output = [] <;> by_cases hf : b.file = [] <;> simp [ho, hf, eq_comm]

/-- When the builder of specification buffers fails, with which message, and the buffer otherwise: its file is exactly the
given one. -/
theorem c113_spec (b : SpecBuilder ρ) :
    (∀ message, b.build = .error message ↔
      (b.reporter = none ∧ message = t!"reporter is mandatory") ∨
      (b.reporter ≠ none ∧ b.output = [] ∧ message = t!"output file is mandatory")) ∧
    ∀ buffer, b.build = .ok buffer ↔
      b.reporter = some buffer.reporter ∧ b.output = buffer.output ∧ buffer.output ≠ [] ∧ buffer.stack = [0] := by
  rw [SpecBuilder.build]
  refine ⟨fun message => ?_, fun buffer => ?_⟩
  · cases b.reporter <;> by_cases ho : b.output = [] <;> simp [ho, eq_comm]
  · obtain ⟨r, o, st⟩ := buffer
    cases b.reporter <;> by_cases ho : b.output = []
    · simp
    · simp
    · simp [ho, eq_comm]
      intro _ h1 h2
      exact absurd h1 h2
    · simp only [ho, if_false, Except.ok.injEq, SpecBuffer.mk.injEq, Option.some.injEq]
      constructor
      · rintro ⟨h1, h2, h3⟩
        exact ⟨h1, h2, fun e => ho (h2.trans e), h3.symm⟩
      · rintro ⟨h1, h2, _, h3⟩
        exact ⟨h1, h2, h3.symm⟩

/-- The file of a Go buffer is inside the output directory, whatever the path of that directory is: it is the file, with
its extension, in the directory of the package. Its reporter is the given one. The package and the file can't contain the
parts `.` and `..`. -/
theorem c113_go_file_partial (b : GoBuilder ρ φ) (buffer : GoBuffer ρ φ) (h : b.build = .ok buffer)
    (hp : NoDots b.pkg) (hf : PlainSegment (b.file ++ t!".go")) :
    b.reporter = some buffer.reporter ∧
    buffer.file = under (clean b.output) (relative (partsOf b.pkg ++ [b.file ++ t!".go"])) := by
  rw [GoBuilder.build] at h
  split at h
  · cases h
  rename_i reporter hr
  split at h
  · cases h
  rename_i ho
  split at h
  · cases h
  split at h
  · cases h
  cases h
  refine ⟨hr, ?_⟩
  change join [b.output, b.pkg, b.file ++ t!".go"] = _
  have hj : joinText t!"/" [b.output, b.pkg, b.file ++ t!".go"] =
      b.output ++ '/' :: (b.pkg ++ '/' :: (b.file ++ t!".go")) := by
    simp [joinText]
  have hq : partsOf (b.pkg ++ '/' :: (b.file ++ t!".go")) = partsOf b.pkg ++ [b.file ++ t!".go"] := by
    rw [partsOf_append, hf.partsOf]
  rw [join, if_neg ho, hj, clean_under _ _ ho ((noDots_append _ _).2 ⟨hp, hf.noDots⟩) (by rw [hq]; simp), hq,
    joinText_relative _ (by simp)]

/-- For the packages of services and versions, that have parts without dots, that is the path that the model of the files
uses. -/
theorem c113_paths (b : GoBuilder ρ φ) (buffer : GoBuffer ρ φ) (h : b.build = .ok buffer) (parts : List Text)
    (hp : ∀ p ∈ parts, PlainSegment p) (hpkg : b.pkg = relative parts) (hf : PlainSegment (b.file ++ t!".go")) :
    buffer.file = under (clean b.output) (Files.pathOf b.pkg b.file) := by
  have hs : NoDots b.pkg ∧ partsOf b.pkg = parts := by
    rw [hpkg]
    exact relative_parts parts hp
  rw [(c113_go_file_partial b buffer h hs.1 hf).2, hs.2, Files.pathOf, hpkg]
  congr 1
  cases parts with
  | nil => simp [relative, absolute]
  | cons p ps =>
    have hne : relative (p :: ps) ≠ [] := by
      have := (hp p List.mem_cons_self).1
      cases p with
      | nil => exact absurd rfl this
      | cons c cs => simp [relative, absolute]
    rw [if_neg hne, relative, relative]
    simp [absolute]

/-- The import path of the code of a Go buffer is the base package if the package is empty, and otherwise the package
inside the base package. -/
theorem c113_go_package_partial (b : GoBuilder ρ φ) (buffer : GoBuffer ρ φ) (h : b.build = .ok buffer)
    (base : Text) (hb : b.packages = some base) (hbase : base ≠ []) (hp : NoDots b.pkg) :
    (partsOf b.pkg ≠ [] → buffer.pkg = under (clean base) (relative (partsOf b.pkg))) ∧
    (b.pkg = [] → buffer.pkg = clean base) := by
  have hk : buffer.pkg = join [base, b.pkg] := by
    rw [GoBuilder.build] at h
    split at h
    · cases h
    split at h
    · cases h
    rw [hb] at h
    dsimp only at h
    split at h
    · cases h
    cases h
    rfl
  have hj : joinText t!"/" [base, b.pkg] = base ++ '/' :: b.pkg := by simp [joinText]
  rw [hk, join, if_neg hbase, hj]
  refine ⟨fun hq => ?_, fun hq => by rw [hq, clean_slash base hbase]⟩
  rw [clean_under _ _ hbase hp hq, joinText_relative _ hq]

/-- The file of a documentation buffer is inside the output directory. -/
theorem c113_doc_file_partial (b : DocBuilder ρ φ) (buffer : DocBuffer ρ φ) (h : b.build = .ok buffer)
    (hn : NoDots (b.file ++ t!".md")) (hf : partsOf (b.file ++ t!".md") ≠ []) :
    b.reporter = some buffer.reporter ∧
    buffer.file = under (clean b.output) (relative (partsOf (b.file ++ t!".md"))) := by
  rw [DocBuilder.build] at h
  split at h
  · cases h
  rename_i reporter hr
  split at h
  · cases h
  rename_i ho
  split at h
  · cases h
  cases h
  refine ⟨hr, ?_⟩
  change join [b.output, b.file ++ t!".md"] = _
  have hj : joinText t!"/" [b.output, b.file ++ t!".md"] = b.output ++ '/' :: (b.file ++ t!".md") := by
    simp [joinText]
  rw [join, if_neg ho, hj, clean_under _ _ ho hn hf, joinText_relative _ hf]

/-- The functions that templates can use: for each name the last one that was added, and if there is none the one of the
buffer. -/
theorem c113_functions (calls : List (Text × φ)) :
    (∀ (b : GoBuilder ρ φ) (buffer : GoBuffer ρ φ), b.functions = (fun _ => none) →
      (calls.foldl (fun b c => b.function c.1 c.2) b).build = .ok buffer → ∀ name,
      buffer.functions name = ((lastAdded calls name).map .added).or
        (([(t!"lineComment", .lineComment), (t!"byteArray", .byteArray), (t!"backtick", .backtick),
          (t!"sub", .sub)] : List (Text × Function φ)).lookup name)) ∧
    (∀ (b : DocBuilder ρ φ) (buffer : DocBuffer ρ φ), b.functions = (fun _ => none) →
      (calls.foldl (fun b c => b.function c.1 c.2) b).build = .ok buffer → ∀ name,
      buffer.functions name = ((lastAdded calls name).map .added).or
        (([(t!"backTicks", .backTicks)] : List (Text × Function φ)).lookup name)) := by
  constructor
  · intro b buffer hb h name
    have hl := lastAdded_go calls b name
    rw [hb] at hl
    generalize calls.foldl (fun b c => b.function c.1 c.2) b = b' at h hl
    rw [GoBuilder.build] at h
    repeat' split at h
    all_goals first | cases h; done | skip
    cases h
    dsimp only
    rw [hl]
    cases lastAdded calls name with
    | some f => rfl
    | none =>
      simp only [Option.or_none, Option.map_none, Option.none_or, List.lookup]
      repeat' split
      all_goals simp_all
  · intro b buffer hb h name
    have hl := lastAdded_doc calls b name
    rw [hb] at hl
    generalize calls.foldl (fun b c => b.function c.1 c.2) b = b' at h hl
    rw [DocBuilder.build] at h
    repeat' split at h
    all_goals first | cases h; done | skip
    cases h
    dsimp only
    rw [hl]
    cases lastAdded calls name with
    | some f => rfl
    | none =>
      simp only [Option.or_none, Option.map_none, Option.none_or, List.lookup]
      repeat' split
      all_goals simp_all

/-- The packages of services that are inside the output directory: those of the directories that aren't one or two dots
without the underscores, nor only underscores. -/
theorem c113_service_package (dir : Text) (hd : '/' ∉ dir) :
    PlainSegment (Go.servicePackage (parseUsingSeparator dir '_')) ↔
      dir.filter (· ≠ '_') ≠ [] ∧ dir.filter (· ≠ '_') ≠ t!"." ∧ dir.filter (· ≠ '_') ≠ t!".." := by
  rw [servicePackage_directory]
  have hs : '/' ∉ dir.filter (· ≠ '_') := fun h => hd (List.mem_filter.1 h).1
  generalize dir.filter (· ≠ '_') = t at hs
  have h1 : t.map Char.toLower = t!"." ↔ t = t!"." := by
    rcases t with _ | ⟨a, _ | ⟨b, t⟩⟩ <;> simp [toLower_special]
  have h2 : t.map Char.toLower = t!".." ↔ t = t!".." := by
    rcases t with _ | ⟨a, _ | ⟨b, _ | ⟨c, t⟩⟩⟩ <;> simp [toLower_special]
  have h3 : '/' ∉ t.map Char.toLower := by
    intro h
    obtain ⟨c, hc, he⟩ := List.mem_map.1 h
    rw [toLower_special c '/' (Or.inr rfl)] at he
    exact hs (he ▸ hc)
  simp only [PlainSegment, ne_eq, h1, h2, List.map_eq_nil_iff]
  exact ⟨fun h => ⟨h.1, h.2.2⟩, fun h => ⟨h.1, h3, h.2⟩⟩

/-- So the file of the client of such a service is in a subdirectory of the output directory, with the name of the
directory of the service without underscores and in lower case. -/
theorem c113_service_file_partial (dir output base : Text) (hd : '/' ∉ dir) (ho : output ≠ [])
    (h1 : dir.filter (· ≠ '_') ≠ []) (h2 : dir.filter (· ≠ '_') ≠ t!".") (h3 : dir.filter (· ≠ '_') ≠ t!"..") :
    ∃ buffer : GoBuffer Unit Unit,
      GoBuilder.build { reporter := some (), output := output, packages := some base, file := t!"client",
                        pkg := Go.servicePackage (parseUsingSeparator dir '_') } = .ok buffer ∧
      buffer.file = under (clean output) ((dir.filter (· ≠ '_')).map Char.toLower ++ t!"/client.go") := by
  have hp := (c113_service_package dir hd).2 ⟨h1, h2, h3⟩
  have hf : PlainSegment (t!"client" ++ t!".go") := ⟨by decide, by decide, by decide, by decide⟩
  obtain ⟨buffer, hb⟩ : ∃ buffer : GoBuffer Unit Unit,
      GoBuilder.build { reporter := some (), output := output, packages := some base, file := t!"client",
                        pkg := Go.servicePackage (parseUsingSeparator dir '_') } = .ok buffer := by
    rw [GoBuilder.build]
    dsimp only
    rw [if_neg ho, if_neg (by decide)]
    exact ⟨_, rfl⟩
  refine ⟨buffer, hb, ?_⟩
  rw [(c113_go_file_partial _ buffer hb hp.noDots hf).2]
  dsimp only
  rw [hp.partsOf, servicePackage_directory]
  simp [relative, absolute]

/-- The package of a version is calculated joining paths. That is the text that the model of the names uses, when the names
of the service and of the version are parts of paths. -/
theorem c113_version_package_partial (s v : Name) (hs : PlainSegment (Go.servicePackage s))
    (hv : PlainSegment (Go.servicePackage v)) :
    join [Go.servicePackage s, Go.servicePackage v] = Go.versionPackage s v ∧
    Go.versionPackage s v = relative [Go.servicePackage s, Go.servicePackage v] := by
  have hr : Go.versionPackage s v = relative [Go.servicePackage s, Go.servicePackage v] := by
    rw [Go.versionPackage, if_neg (show s.lowerJoined [] ≠ [] from hs.1), if_neg (show v.lowerJoined [] ≠ [] from hv.1)]
    simp [relative, absolute, Go.servicePackage]
  refine ⟨?_, hr⟩
  have hp : ∀ p ∈ [Go.servicePackage s, Go.servicePackage v], PlainSegment p := by
    intro p hp
    simp only [List.mem_cons, List.not_mem_nil, or_false] at hp
    rcases hp with rfl | rfl
    · exact hs
    · exact hv
  obtain ⟨h1, h2⟩ := relative_parts _ hp
  have hj : joinText t!"/" [Go.servicePackage s, Go.servicePackage v] =
      relative [Go.servicePackage s, Go.servicePackage v] := joinText_relative _ (by simp)
  have hh : (relative [Go.servicePackage s, Go.servicePackage v]).head? ≠ some '/' := by
    obtain ⟨c, cs, hc⟩ : ∃ c cs, Go.servicePackage s = c :: cs := by
      cases he : Go.servicePackage s with
      | nil => exact absurd he hs.1
      | cons c cs => exact ⟨c, cs, rfl⟩
    have hn := hs.2.1
    rw [hc] at hn ⊢
    simp only [List.mem_cons, not_or] at hn
    simp only [relative, absolute, List.flatMap_cons, List.cons_append, List.tail_cons, List.head?_cons, ne_eq,
      Option.some.injEq]
    exact fun e => hn.1 e.symm
  rw [join, if_neg hs.1, hj, clean_relative _ hh h1 (by rw [h2]; simp), h2, hr, relative]

/-- The files of a version are in a directory for the version, inside the one of the service, inside the output
directory. -/
theorem c113_version_file_partial (s v : Name) (hs : PlainSegment (Go.servicePackage s))
    (hv : PlainSegment (Go.servicePackage v)) (b : GoBuilder ρ φ) (buffer : GoBuffer ρ φ) (h : b.build = .ok buffer)
    (hp : b.pkg = Go.versionPackage s v) (hf : PlainSegment (b.file ++ t!".go")) :
    buffer.file = under (clean b.output)
      (Go.servicePackage s ++ t!"/" ++ Go.servicePackage v ++ t!"/" ++ b.file ++ t!".go") := by
  have hr := (c113_version_package_partial s v hs hv).2
  have ha : ∀ p ∈ [Go.servicePackage s, Go.servicePackage v], PlainSegment p := by
    intro p hp
    simp only [List.mem_cons, List.not_mem_nil, or_false] at hp
    rcases hp with rfl | rfl
    · exact hs
    · exact hv
  obtain ⟨h1, h2⟩ := relative_parts _ ha
  rw [← hr, ← hp] at h1 h2
  rw [(c113_go_file_partial b buffer h h1 hf).2, h2]
  simp [relative, absolute]

/-- The names of a service and a version that are parts of paths. -/
example : PlainSegment (Go.servicePackage (parseUsingSeparator t!"clusters_mgmt" '_')) ∧
    Go.versionPackage (parseUsingSeparator t!"clusters_mgmt" '_') (parseUsingSeparator t!"v1" '_') =
      t!"clustersmgmt/v1" := by
  refine ⟨⟨by decide +kernel, by decide +kernel, by decide +kernel, by decide +kernel⟩, by decide +kernel⟩

/-- The files of the specifications are always inside the output directory: in the directories of the service and of the
version, in lower case. The names of directories are always parts of paths. That is also the path that the model of the
files uses. -/
theorem c113_spec_file (output service version : Text) (ho : output ≠ []) (hs : PlainSegment service)
    (hv : PlainSegment version) :
    let s := parseUsingSeparator service '_'
    let v := parseUsingSeparator version '_'
    specPath output s v = under (clean output) (specFileName s v) ∧
    specFileName s v = service.map Char.toLower ++ t!"/" ++ version.map Char.toLower ++ t!"/openapi.json" ∧
    specFileName s v = Files.specFile s v := by
  have hf : PlainSegment t!"openapi.json" := ⟨by decide, by decide, by decide, by decide⟩
  have ha : ∀ p ∈ [service.map Char.toLower, version.map Char.toLower, t!"openapi.json"], PlainSegment p := by
    intro p hp
    simp only [List.mem_cons, List.not_mem_nil, or_false] at hp
    rcases hp with rfl | rfl | rfl
    · exact plain_lower _ hs
    · exact plain_lower _ hv
    · exact hf
  dsimp only
  have he : specFileName (parseUsingSeparator service '_') (parseUsingSeparator version '_') =
      relative [service.map Char.toLower, version.map Char.toLower, t!"openapi.json"] := by
    rw [specFileName, snake_directory, snake_directory]
    exact join_plain _ (by simp) ha
  obtain ⟨h1, h2⟩ := relative_parts _ ha
  refine ⟨?_, ?_, ?_⟩
  · have hj : ∀ t, joinText t!"/" [output, t] = output ++ '/' :: t := by simp [joinText]
    rw [specPath, join, if_neg ho, hj, he, clean_under _ _ ho h1 (by rw [h2]; simp), h2, joinText_relative _ (by simp)]
  · rw [he]
    simp [relative, absolute]
  · rw [he, Files.specFile, snake_directory, snake_directory]
    simp [relative, absolute]

/-- The files aren't always inside the output directory: for the service whose directory is `._.`, the name of the package
is `..`. -/
theorem c113_inside_refuted :
    ¬ ∀ (dir output : Text) (buffer : GoBuffer Unit Unit),
      GoBuilder.build { reporter := some (), output := output, packages := some t!"example.com/api", file := t!"client",
                        pkg := Go.servicePackage (parseUsingSeparator dir '_') } = .ok buffer →
      ∃ inside, buffer.file = under (clean output) inside := by
  intro h
  obtain ⟨inside, hi⟩ := h t!"._." t!"out" _ rfl
  have h1 : clean t!"out" = t!"out" := by decide +kernel
  have h2 : join [t!"out", Go.servicePackage (parseUsingSeparator t!"._." '_'), t!"client" ++ t!".go"] =
      t!"client.go" := by decide +kernel
  rw [h1] at hi
  have h3 : t!"client.go" = t!"out" ++ '/' :: inside := h2.symm.trans hi
  exact absurd (congrArg List.head? h3) (by simp)

/-- A file in a directory whose path isn't clean. -/
example : ∃ buffer : GoBuffer Unit Unit,
    GoBuilder.build { reporter := some (), output := t!"../out//x/..", packages := some t!"example.com/api",
                      file := t!"client", pkg := t!"clusters/v1" } = .ok buffer ∧
    NoDots t!"clusters/v1" ∧ PlainSegment (t!"client" ++ t!".go") ∧
    buffer.file = t!"../out/clusters/v1/client.go" ∧ buffer.pkg = t!"example.com/api/clusters/v1" := by
  refine ⟨_, rfl, ⟨by decide +kernel, by decide +kernel⟩, ⟨by decide, by decide, by decide, by decide⟩, ?_, ?_⟩ <;>
    decide +kernel

end Verif.Buffers
