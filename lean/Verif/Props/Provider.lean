import Verif.Props.Cli
import Verif.Proofs.Raises
import Verif.Spec.Provider
/-!
# C60: the file based MAUS provider; C61: the check of the youngest `.tree` file; C67: exceptions in loading
-/

namespace Verif
open FileProg

/-! ## C67 -/

/-- **C67** whatever the data is: loading with any of the three schemas raises nothing but `ValidationError`, `TypeError` and
`ValueError`. -/
theorem C67_load_exceptions (j : Json) (e : Exc) :
    (FlatAhb.load j = .error e → e = .validationError ∨ e = .typeError ∨ e = .valueError) ∧
    (DeepAhb.load j = .error e → e = .validationError ∨ e = .typeError ∨ e = .valueError) ∧
    (Sgh.load j = .error e → e = .validationError ∨ e = .typeError ∨ e = .valueError) :=
  ⟨raises_flat j e, raises_deep j e, Sgh.raises_load j e⟩

/-- all three exceptions occur -/
example : DeepAhb.load (.num 1) = .error .validationError ∧ DeepAhb.load (.obj []) = .error .typeError ∧
    FlatAhb.load (.obj [(py!"meta", .obj [(py!"pruefidentifikator", .str []), (py!"direction", .str [])]), (py!"lines", .arr [])])
      = .error .valueError := by decide +kernel

/-! ## C60 -/

theorem resolve_missing : ∀ {p : FsPath} {fs : FsNode}, fs.resolve p = .error .fileNotFoundError ↔ fs.IsMissing p
  | [], fs => by
    simp only [FsNode.resolve, reduceCtorEq, false_iff]
    rintro ⟨dir, name, rest, h, _⟩
    cases dir <;> cases h
  | c :: p, .file b => by
    simp only [FsNode.resolve, Except.error.injEq, reduceCtorEq, false_iff]
    rintro ⟨dir, name, rest, h, hd, _⟩
    cases dir with
    | nil => cases hd
    | cons x dir => cases hd
  | c :: p, .dir es => by
    rw [FsNode.resolve]
    cases hg : dictGet c es with
    | none =>
      simp only [true_iff]
      refine ⟨[], c, p, rfl, rfl, ?_⟩
      simp [FsNode.exists, FsNode.resolve, hg]
    | some m =>
      dsimp only
      rw [resolve_missing]
      constructor
      · rintro ⟨dir, name, rest, rfl, hd, he⟩
        refine ⟨c :: dir, name, rest, rfl, ?_, ?_⟩
        · simpa [FsNode.isDir, FsNode.resolve, hg] using hd
        · simpa [FsNode.exists, FsNode.resolve, hg] using he
      · rintro ⟨dir, name, rest, h, hd, he⟩
        cases dir with
        | nil =>
          injection h with h1 h2
          subst h1
          simp [FsNode.exists, FsNode.resolve, hg] at he
        | cons x dir =>
          injection h with h1 h2
          subst h1
          refine ⟨dir, name, rest, h2, ?_, ?_⟩
          · simpa [FsNode.isDir, FsNode.resolve, hg] using hd
          · simpa [FsNode.exists, FsNode.resolve, hg] using he

theorem resolve_error : ∀ {p : FsPath} {fs : FsNode} {e : Exc}, fs.resolve p = .error e → e = .fileNotFoundError ∨ e = .other
  | [], _, _, h => by rw [FsNode.resolve] at h; cases h
  | _ :: _, .file _, _, h => by cases h; exact .inr rfl
  | c :: p, .dir es, e, h => by
    rw [FsNode.resolve] at h
    split at h
    · cases h; exact .inl rfl
    · exact resolve_error h

section
variable {F V : Type} (env : FileEnv) (cwd : FsPath) (basePath : PurePath) (decode : Bytes → PyRes PyStr)
  (toPath : F → V → PyStr → PyRes PurePath) (format : F) (version : V) (pruefidentifikator : PyStr)

/-- the body of the `try` -/
def getMausBody (p : FsPath) : FileProg DeepAhb := do
  let content ← readBytes env p
  let text ← lift (decode content)
  lift ((jsonLoads text).bind DeepAhb.load)

theorem OnlyReads.getMausBody (p : FsPath) : OnlyReads (· = p) (getMausBody env decode p) :=
  (OnlyReads.readBytes env p).seq fun _ => (OnlyReads.lift _).seq fun _ => .lift _

theorem getMausBody_ok {p : FsPath} {w : FileWorld} {maus : DeepAhb} : (getMausBody env decode p w).1 = .ok maus ↔
    ∃ content text, ReadableAt env w.fs p content ∧ decode content = .ok text ∧ (jsonLoads text).bind DeepAhb.load = .ok maus := by
  unfold getMausBody
  rw [seq_ok (OnlyReads.readBytes env p) fun _ => ⟨fun _ => True, (OnlyReads.lift _).seq fun _ => .lift _⟩]
  constructor
  · rintro ⟨content, h1, h2⟩
    obtain ⟨text, h3, h4⟩ := (seq_ok (P := fun _ => True) (OnlyReads.lift _) fun _ => ⟨fun _ => True, .lift _⟩).1 h2
    exact ⟨content, text, readBytes_ok.1 h1, h3, h4⟩
  · rintro ⟨content, text, h1, h3, h4⟩
    exact ⟨content, readBytes_ok.2 h1,
      (seq_ok (P := fun _ => True) (OnlyReads.lift _) fun _ => ⟨fun _ => True, .lift _⟩).2 ⟨text, h3, h4⟩⟩

theorem getMausBody_notFound (hdec : ∀ b, decode b ≠ .error .fileNotFoundError) {p : FsPath} {w : FileWorld} :
    (getMausBody env decode p w).1 = .error .fileNotFoundError ↔ w.fs.IsMissing p := by
  rw [← resolve_missing]
  unfold getMausBody
  rcases readBytes_cases env p w with ⟨b, h1, _, h⟩ | ⟨e, h, he, _⟩
  · rw [seq_of_ok h]
    have hr : w.fs.resolve p = .ok (.file b) := contentAt_eq_some.1 h1
    rw [hr]
    simp only [reduceCtorEq, iff_false]
    cases hd : decode b with
    | error e =>
      rw [seq_of_error (prog := FileProg.lift _) rfl]
      intro he
      injection he with he
      exact hdec b (by rw [hd, he])
    | ok text =>
      rw [seq_of_ok (prog := FileProg.lift _) rfl]
      intro he
      have he : (jsonLoads text).bind DeepAhb.load = .error .fileNotFoundError := he
      cases hj : jsonLoads text with
      | error e =>
        rw [hj] at he
        injection he with he
        rcases raises_jsonLoads text e hj with h | h <;> rw [h] at he <;> cases he
      | ok j =>
        rw [hj] at he
        rcases raises_deep j _ he with h | h | h <;> cases h
  · rw [seq_of_error h]
    simp only [Except.error.injEq]
    exact he

theorem placeBelow_eq (cwd : FsPath) (base rel : PurePath) : placeBelow cwd base rel = (base.join rel).resolved cwd := by
  unfold placeBelow PurePath.join PurePath.resolved
  cases h : rel.absolute <;> cases base.absolute <;> simp [h]

/-- **C60 (exact)** Let `p` be the path that `to_path` gives for the parameters, below the base path. `get_maus` returns `None` iff
a directory on the way to `p` has no such entry, and a MAUS iff there is a readable file at `p` with a decodable text which the schema
loads as this MAUS. In all other cases it raises. It changes nothing. If `to_path` itself raises, then this exception is raised. -/
theorem C60_get_maus (hdec : ∀ b, decode b ≠ .error .fileNotFoundError) (w : FileWorld) :
    (∀ e, toPath format version pruefidentifikator = .error e →
      (getMaus env cwd basePath decode toPath format version pruefidentifikator w).1 = .error e) ∧
    (∀ rel, toPath format version pruefidentifikator = .ok rel →
      ((getMaus env cwd basePath decode toPath format version pruefidentifikator w).1 = .ok none ↔
        w.fs.IsMissing (placeBelow cwd basePath rel)) ∧
      ∀ maus, (getMaus env cwd basePath decode toPath format version pruefidentifikator w).1 = .ok (some maus) ↔
        ∃ content text, ReadableAt env w.fs (placeBelow cwd basePath rel) content ∧ decode content = .ok text ∧
          (jsonLoads text).bind DeepAhb.load = .ok maus) ∧
    (getMaus env cwd basePath decode toPath format version pruefidentifikator w).2.fs = w.fs := by
  simp only [placeBelow_eq]
  cases ht : toPath format version pruefidentifikator with
  | error e =>
    unfold getMaus
    rw [ht, seq_of_error (prog := FileProg.lift _) (w := w) (e := e) (w' := w) rfl]
    exact ⟨fun e' h => (by cases h; rfl), fun rel h => (by cases h), rfl⟩
  | ok rel =>
    have hrun : getMaus env cwd basePath decode toPath format version pruefidentifikator w =
        noneIfNotFound (getMausBody env decode ((basePath.join rel).resolved cwd)) w := by
      unfold getMaus
      rw [ht, seq_of_ok (prog := FileProg.lift _) (w := w) (a := rel) (w' := w) rfl]
      rfl
    rw [hrun]
    refine ⟨fun e h => (by cases h), fun rel' h => ?_, ?_⟩
    · cases h
      have h1 := getMausBody_notFound env decode hdec (p := (basePath.join rel).resolved cwd) (w := w)
      have h2 := fun maus => getMausBody_ok env decode (p := (basePath.join rel).resolved cwd) (w := w) (maus := maus)
      unfold noneIfNotFound
      rcases hb : getMausBody env decode ((basePath.join rel).resolved cwd) w with ⟨r, w'⟩
      rw [hb] at h1 h2
      cases r with
      | ok a => exact ⟨by rw [← h1]; simp, fun maus => by rw [← h2]; simp⟩
      | error e =>
        cases e <;> exact ⟨by rw [← h1]; simp, fun maus => by rw [← h2]; simp⟩
    · have h := (OnlyReads.getMausBody env decode ((basePath.join rel).resolved cwd)).fs w
      unfold noneIfNotFound
      rcases hb : getMausBody env decode ((basePath.join rel).resolved cwd) w with ⟨r, w'⟩
      rw [hb] at h
      cases r with
      | ok a => exact h
      | error e => cases e <;> exact h

/-- **C60 (exceptions)** which exception `get_maus` raises: if there is a readable file at the path, the exception of decoding, parsing
or loading its content; if there is something at the path, or on the way to it, that cannot be opened as a file (a directory, a file
without permission, a file in the place of a directory), the `OSError` of `open`. -/
theorem C60_exceptions (hdec : ∀ b, decode b ≠ .error .fileNotFoundError) (w : FileWorld) (rel : PurePath)
    (ht : toPath format version pruefidentifikator = .ok rel) (e : Exc) :
    (getMaus env cwd basePath decode toPath format version pruefidentifikator w).1 = .error e ↔
      (∃ content, ReadableAt env w.fs (placeBelow cwd basePath rel) content ∧
        (decode content = .error e ∨ ∃ text, decode content = .ok text ∧ (jsonLoads text).bind DeepAhb.load = .error e)) ∨
      (e = .other ∧ ¬ w.fs.IsMissing (placeBelow cwd basePath rel) ∧
        ∀ content, ¬ ReadableAt env w.fs (placeBelow cwd basePath rel) content) := by
  have hrun : getMaus env cwd basePath decode toPath format version pruefidentifikator w =
      noneIfNotFound (getMausBody env decode (placeBelow cwd basePath rel)) w := by
    rw [placeBelow_eq]
    unfold getMaus
    rw [ht, seq_of_ok (prog := FileProg.lift _) (w := w) (a := rel) (w' := w) rfl]
    rfl
  rw [hrun]
  generalize placeBelow cwd basePath rel = p
  have h1 := getMausBody_notFound env decode hdec (p := p) (w := w)
  have h2 : (getMausBody env decode p w).1 = .error e ∧ e ≠ .fileNotFoundError ↔
      (noneIfNotFound (getMausBody env decode p) w).1 = .error e := by
    unfold noneIfNotFound
    rcases getMausBody env decode p w with ⟨r, w'⟩
    cases r with
    | ok a => simp
    | error e' => cases e' <;> simp <;> rintro rfl <;> simp
  rw [← h2, ← resolve_missing]
  rcases readBytes_cases env p w with ⟨b, hb, hd, h⟩ | ⟨e', h, he, hn⟩
  · have hr : ReadableAt env w.fs p b := ⟨hb, hd⟩
    have hu : ∀ c, ReadableAt env w.fs p c ↔ c = b := fun c => ⟨fun hc => by
      have := hc.1; rw [hb] at this; exact (Option.some.inj this).symm, fun h => h ▸ hr⟩
    have hbody : (getMausBody env decode p w).1 = (decode b).bind fun text => (jsonLoads text).bind DeepAhb.load := by
      unfold getMausBody
      rw [seq_of_ok h]
      cases hd : decode b with
      | error e => rw [seq_of_error (prog := FileProg.lift _) rfl]; rfl
      | ok text => rw [seq_of_ok (prog := FileProg.lift _) rfl]; rfl
    have hne : (getMausBody env decode p w).1 ≠ .error .fileNotFoundError := by
      rw [Ne, h1, ← resolve_missing, contentAt_eq_some.1 hb]
      simp
    have h3 : (getMausBody env decode p w).1 = .error e ∧ e ≠ .fileNotFoundError ↔ (getMausBody env decode p w).1 = .error e :=
      ⟨fun h => h.1, fun h => ⟨h, by rintro rfl; exact hne h⟩⟩
    rw [h3, hbody]
    simp only [hu, exists_eq_left]
    cases hd : decode b with
    | error e2 => simp [Except.bind]
    | ok text => simp [Except.bind]
  · have hno : ∀ c, ¬ ReadableAt env w.fs p c := fun c hc => hn ⟨c, hc⟩
    have hbody : (getMausBody env decode p w).1 = .error e' := by
      unfold getMausBody
      rw [seq_of_error h]
    have hother : e' = .fileNotFoundError ∨ e' = .other := by
      have hx : (FileProg.readBytes env p w).1 = .error e' := by rw [h]
      unfold FileProg.readBytes at hx
      split at hx
      · rename_i e2 hres
        cases hx
        exact resolve_error hres
      · cases hx; exact .inr rfl
      · split at hx
        · cases hx; exact .inr rfl
        · cases hx
    rw [hbody]
    simp only [hno, not_false_eq_true, implies_true, and_true, false_and, exists_false, false_or, Except.error.injEq]
    rw [← he]
    rcases hother with rfl | rfl
    · simp only [not_true, and_false, iff_false]
      rintro ⟨rfl, h⟩
      exact h rfl
    · simp only [reduceCtorEq, not_false_eq_true, and_true]
      constructor
      · rintro ⟨rfl, _⟩; rfl
      · rintro rfl; exact ⟨rfl, by simp⟩

/-- **C60** if the directory in which the file is expected exists, then `get_maus` returns `None` iff there is nothing with the
name of the file.
Missing for C60 as stated: if a regular file is on the way to the expected directory, then the file does not exist, but
`NotADirectoryError` is raised (`C60_not_a_directory`). -/
theorem C60_none_iff_missing_partial (hdec : ∀ b, decode b ≠ .error .fileNotFoundError) (w : FileWorld) (rel : PurePath)
    (ht : toPath format version pruefidentifikator = .ok rel) (dir : FsPath) (name : PyStr)
    (hp : placeBelow cwd basePath rel = dir ++ [name]) (hd : w.fs.isDir dir = true) :
    (getMaus env cwd basePath decode toPath format version pruefidentifikator w).1 = .ok none ↔
      w.fs.exists (placeBelow cwd basePath rel) = false := by
  rw [((C60_get_maus env cwd basePath decode toPath format version pruefidentifikator hdec w).2.1 rel ht).1]
  constructor
  · intro h
    rw [← resolve_missing] at h
    unfold FsNode.exists
    rw [h]
  · intro h
    exact ⟨dir, name, [], hp, hd, hp ▸ h⟩

end

/-- a path function: one directory per format version -/
def exToPath (format version : PyStr) (pruefi : PyStr) : PyRes PurePath :=
  if pruefi.isEmpty then .error .valueError
  else .ok { absolute := false, parts := [version, format, pruefi ++ py!"_maus.json"] }

/-- a file system with one MAUS, an empty directory, and a regular file where a directory is expected -/
def exMausFs : FsNode :=
  .dir [(py!"maus", .dir [(py!"FV2204", .dir [
    (py!"UTILMD", .dir [(py!"11042_maus.json", .file (encodeUtf8 (jsonDumps exCliStyle exDeepComplete.dump)))]),
    (py!"MSCONS", .dir []), (py!"ORDERS", .file [])])])]

/-- the base path -/
def exBase : PurePath := { absolute := true, parts := [py!"maus"] }

/-- with UTF-8 as encoding there is no `FileNotFoundError` in decoding -/
theorem decodeUtf8_not_missing (b : Bytes) : decodeUtf8 b ≠ .error .fileNotFoundError := by
  unfold decodeUtf8
  split <;> simp

/-- **C60 is false as stated**: the file does not exist, but `get_maus` does not return `None`. -/
theorem C60_not_a_directory : ∃ (w : FileWorld) (rel : PurePath), exToPath py!"ORDERS" py!"FV2204" py!"11042" = .ok rel ∧
    w.fs.exists (placeBelow [] exBase rel) = false ∧
    (getMaus exFiles [] exBase decodeUtf8 exToPath py!"ORDERS" py!"FV2204" py!"11042" w).1 = .error .other :=
  ⟨⟨exMausFs, []⟩, _, rfl, rfl, rfl⟩

example : (getMaus exFiles [] exBase decodeUtf8 exToPath py!"MSCONS" py!"FV2204" py!"13005" ⟨exMausFs, []⟩).1 = .ok none := by
  refine (((C60_get_maus exFiles [] exBase decodeUtf8 exToPath _ _ _ decodeUtf8_not_missing ⟨exMausFs, []⟩).2.1 _ rfl).1).2 ?_
  exact ⟨[py!"maus", py!"FV2204", py!"MSCONS"], py!"13005_maus.json", [], rfl, rfl, rfl⟩

example : ∃ maus, (getMaus exFiles [] exBase decodeUtf8 exToPath py!"UTILMD" py!"FV2204" py!"11042" ⟨exMausFs, []⟩).1 = .ok (some maus) := by
  refine ⟨exDeepComplete.resetAhbLineIndex,
    (((C60_get_maus exFiles [] exBase decodeUtf8 exToPath _ _ _ decodeUtf8_not_missing ⟨exMausFs, []⟩).2.1 _ rfl).2 _).2
      ⟨_, _, ⟨rfl, rfl⟩, decodeUtf8_jsonDumps _ _, by decide +kernel⟩⟩

/-- there is a file in the place of a directory -/
example : (getMaus exFiles [] exBase decodeUtf8 exToPath py!"ORDERS" py!"FV2204" py!"11042" ⟨exMausFs, []⟩).1 = .error .other := by
  refine (C60_exceptions exFiles [] exBase decodeUtf8 exToPath _ _ _ decodeUtf8_not_missing ⟨exMausFs, []⟩ _ rfl _).2 (.inr ⟨rfl, ?_, ?_⟩)
  · rw [← resolve_missing]; intro h; cases h
  · rintro content ⟨h, _⟩; cases h

/-- an empty file is no JSON document -/
example : (getMaus exFiles [] exBase decodeUtf8 (fun (_ _ : PyStr) _ => .ok { absolute := false, parts := [py!"FV2204", py!"ORDERS"] })
    py!"ORDERS" py!"FV2204" py!"11042" ⟨exMausFs, []⟩).1 = .error .valueError :=
  (C60_exceptions exFiles [] exBase decodeUtf8 _ _ _ _ decodeUtf8_not_missing ⟨exMausFs, []⟩ _ rfl _).2
    (.inl ⟨[], ⟨rfl, rfl⟩, .inr ⟨[], by decide +kernel, by decide +kernel⟩⟩)

/-- a base path is ignored if `to_path` gives an absolute path -/
example : (exBase.join { absolute := true, parts := [py!"tmp", py!"x"] }).resolved [] = [py!"tmp", py!"x"] := rfl

/-! ## C61 -/

theorem mem_insertName {n x : PyStr} : ∀ {l : List PyStr}, x ∈ insertName n l ↔ x = n ∨ x ∈ l
  | [] => by simp [insertName]
  | m :: l => by
    rw [insertName]
    split
    · simp
    · simp only [List.mem_cons, mem_insertName]
      tauto

theorem mem_sortNames {x : PyStr} : ∀ {l : List PyStr}, x ∈ sortNames l ↔ x ∈ l
  | [] => by simp [sortNames]
  | n :: l => by
    show x ∈ insertName n (sortNames l) ↔ _
    rw [mem_insertName, mem_sortNames, List.mem_cons]

theorem sortNames_head : ∀ {l : List PyStr} {m : PyStr} {rest : List PyStr}, sortNames l = m :: rest → ∀ x ∈ l, x ≤ m
  | [], m, rest, h => by cases h
  | n :: l, m, rest, h => by
    have h : insertName n (sortNames l) = m :: rest := h
    intro x hx
    cases hs : sortNames l with
    | nil =>
      rw [hs, insertName] at h
      injection h with h1 h2
      rcases List.mem_cons.1 hx with rfl | hx
      · rw [h1]; exact List.le_refl _
      · rw [← mem_sortNames, hs] at hx; cases hx
    | cons m' rest' =>
      have ih := sortNames_head hs
      rw [hs, insertName] at h
      split at h
      · rename_i hle
        injection h with h1 h2
        subst h1
        rcases List.mem_cons.1 hx with rfl | hx
        · exact List.le_refl _
        · exact List.le_trans (ih x hx) hle
      · rename_i hle
        injection h with h1 h2
        subst h1
        rcases List.mem_cons.1 hx with rfl | hx
        · rcases List.le_total x m' with h | h
          · exact h
          · exact absurd h hle
        · exact ih x hx

theorem isTreeName_iff (name : PyStr) : isTreeName name = true ↔ IsTreeFileName name := by
  unfold isTreeName IsTreeFileName
  rw [List.isSuffixOf_iff_suffix]
  constructor
  · rintro ⟨stem, h⟩; exact ⟨stem, h.symm⟩
  · rintro ⟨stem, h⟩; exact ⟨stem, h.symm⟩

theorem mem_map_fst_iff {α : Type} {k : PyStr} : ∀ {d : List (PyStr × α)}, k ∈ d.map Prod.fst ↔ dictGet k d ≠ none
  | [] => by simp [dictGet]
  | (a, b) :: d => by
    simp only [List.map_cons, List.mem_cons, dictGet]
    by_cases h : a = k
    · simp [h]
    · rw [if_neg h, mem_map_fst_iff]
      constructor
      · rintro (h' | h')
        · exact absurd h'.symm h
        · exact h'
      · exact .inr

theorem mem_treeNames {env : FileEnv} {fs : FsNode} {dir : FsPath} (hr : env.readDenied dir = false) {name : PyStr} :
    name ∈ treeNames env fs dir ↔ fs.HasEntry dir name ∧ IsTreeFileName name := by
  unfold treeNames FsNode.HasEntry
  have hres : ∀ {fs : FsNode} {dir : FsPath} {m : FsNode}, fs.resolve dir = .ok m → fs.resolve (dir ++ [name]) = m.resolve [name] := by
    intro fs dir
    induction dir generalizing fs with
    | nil => intro m h; cases h; rfl
    | cons c dir ih =>
      intro m h
      cases fs with
      | file b => cases h
      | dir es =>
        rw [FsNode.resolve] at h
        rw [List.cons_append, FsNode.resolve]
        cases hg : dictGet c es with
        | none => rw [hg] at h; cases h
        | some m' => rw [hg] at h; exact ih h
  cases hd : fs.resolve dir with
  | error e => simp [FsNode.isDir, hd]
  | ok m =>
    cases m with
    | file b => simp [FsNode.isDir, hd]
    | dir es =>
      dsimp only
      rw [hr, if_neg (by simp), List.mem_filter, mem_map_fst_iff, isTreeName_iff]
      refine and_congr ?_ Iff.rfl
      simp only [FsNode.isDir, hd, true_and, FsNode.exists, hres hd, FsNode.resolve]
      cases dictGet name es <;> simp

section
variable {τ : Type} (env : FileEnv) (parse : PyStr → PyRes τ) (dir : FsPath) (w : FileWorld)

theorem checkTree_run (p : FsPath) : (∃ l, checkFileCanBeParsedAsTree env parse p w = ((checkFileCanBeParsedAsTree env parse p w).1,
      { fs := w.fs, log := w.log ++ l }) ∧ ∀ e ∈ l, e = .opened p) ∧
    ((checkFileCanBeParsedAsTree env parse p w).1 = .ok () ↔ ∃ t tree, TextAt env w.fs p t ∧ parse t = .ok tree) := by
  have hr : OnlyReads (· = p) (readTree env parse (.path p)) := (OnlyReads.readText env p).seq fun _ => .lift _
  have hc : OnlyReads (· = p) (checkFileCanBeParsedAsTree env parse p) := hr.seq fun _ => .pure _
  constructor
  · obtain ⟨l, h1, h2⟩ := hc.log w
    have h3 := hc.fs w
    refine ⟨l, ?_, fun e he => by obtain ⟨q, rfl, h⟩ := h2 e he; exact h⟩
    generalize checkFileCanBeParsedAsTree env parse p w = x at *
    obtain ⟨r, ⟨fs, log⟩⟩ := x
    simp only at h1 h3
    rw [h1, h3]
  · unfold checkFileCanBeParsedAsTree
    rw [seq_ok hr fun _ => ⟨fun _ => True, .pure _⟩]
    unfold readTree
    dsimp only
    constructor
    · rintro ⟨tree, h, _⟩
      obtain ⟨t, h1, h2⟩ := (seq_ok (OnlyReads.readText env p) fun _ => ⟨fun _ => True, .lift _⟩).1 h
      exact ⟨t, tree, readText_ok.1 h1, h2⟩
    · rintro ⟨t, tree, h1, h2⟩
      exact ⟨tree, (seq_ok (OnlyReads.readText env p) fun _ => ⟨fun _ => True, .lift _⟩).2 ⟨t, readText_ok.2 h1, h2⟩, rfl⟩

/-- **C61** a path that does not exist, or a directory without `.tree` files: nothing is read, no exception. -/
theorem C61_nothing_to_check (h : w.fs.exists dir = false ∨ w.fs.isDir dir = true ∧ ∀ name, w.fs.HasEntry dir name → ¬ IsTreeFileName name) :
    checkYoungestTreeIsParseable env parse dir w = (.ok (), w) := by
  unfold checkYoungestTreeIsParseable
  rcases h with h | ⟨h1, h2⟩
  · rw [h]; rfl
  · have he : w.fs.exists dir = true := by rw [exists_eq, h1]; rfl
    have hn : treeNames env w.fs dir = [] := by
      cases hr : env.readDenied dir with
      | false =>
        rw [List.eq_nil_iff_forall_not_mem]
        intro name hname
        obtain ⟨h3, h4⟩ := (mem_treeNames hr).1 hname
        exact h2 name h3 h4
      | true =>
        unfold treeNames
        split
        · rw [hr]; rfl
        · rfl
    rw [he, h1, hn]
    rfl

/-- **C61** a path that exists but is no directory: `ValueError`. -/
theorem C61_not_a_directory (h1 : w.fs.exists dir = true) (h2 : w.fs.isDir dir = false) :
    checkYoungestTreeIsParseable env parse dir w = (.error .valueError, w) := by
  unfold checkYoungestTreeIsParseable
  rw [h1, h2]
  rfl

/-- **C61** a readable directory: if `youngest` is the greatest name (by code points) among the entries that end with `.tree`, then
the check succeeds iff this entry is a readable text file that can be parsed; no other file is opened and nothing is changed. -/
theorem C61_youngest (youngest : PyStr) (hr : env.readDenied dir = false) (h1 : w.fs.HasEntry dir youngest) (h2 : IsTreeFileName youngest)
    (h3 : ∀ name, w.fs.HasEntry dir name → IsTreeFileName name → name ≤ youngest) :
    ((checkYoungestTreeIsParseable env parse dir w).1 = .ok () ↔
      ∃ t tree, TextAt env w.fs (dir ++ [youngest]) t ∧ parse t = .ok tree) ∧
    (∀ t e, TextAt env w.fs (dir ++ [youngest]) t → parse t = .error e → (checkYoungestTreeIsParseable env parse dir w).1 = .error e) ∧
    (checkYoungestTreeIsParseable env parse dir w).2.fs = w.fs ∧
    ∃ l, (checkYoungestTreeIsParseable env parse dir w).2.log = w.log ++ l ∧ ∀ e ∈ l, e = .opened (dir ++ [youngest]) := by
  have he : w.fs.exists dir = true := by rw [exists_eq, h1.1]; rfl
  have hm : youngest ∈ treeNames env w.fs dir := (mem_treeNames hr).2 ⟨h1, h2⟩
  have hrun : checkYoungestTreeIsParseable env parse dir w = checkFileCanBeParsedAsTree env parse (dir ++ [youngest]) w := by
    unfold checkYoungestTreeIsParseable
    rw [he, h1.1]
    simp only [Bool.not_true, Bool.false_eq_true, if_false]
    cases hs : sortNames (treeNames env w.fs dir) with
    | nil => rw [← mem_sortNames, hs] at hm; cases hm
    | cons m rest =>
      dsimp only
      have hm' : m ∈ treeNames env w.fs dir := by rw [← mem_sortNames, hs]; exact List.mem_cons_self
      obtain ⟨h4, h5⟩ := (mem_treeNames hr).1 hm'
      rw [List.le_antisymm (sortNames_head hs youngest hm) (h3 m h4 h5)]
  rw [hrun]
  obtain ⟨⟨l, hl, hl'⟩, hok⟩ := checkTree_run env parse w (dir ++ [youngest])
  refine ⟨hok, fun t e ht hp => ?_, by rw [hl], l, by rw [hl], hl'⟩
  have h := readText_ok.2 ht
  unfold checkFileCanBeParsedAsTree readTree
  dsimp only
  rcases hx : readText env (dir ++ [youngest]) w with ⟨r, w'⟩
  rw [hx] at h
  dsimp only at h
  subst h
  have hin : (do let treeStr ← readText env (dir ++ [youngest]); FileProg.lift (parse treeStr)) w = (.error e, w') := by
    rw [seq_of_ok hx]
    unfold FileProg.lift
    rw [hp]
  rw [seq_of_error hin]

end

/-- a directory with three entries, two of them `.tree` files -/
def exTreeFs : FsNode :=
  .dir [(py!"trees", .dir [(py!"FV2204.tree", .file (encodeUtf8 py!"bad")), (py!"FV2210.tree", .file (encodeUtf8 py!"good")),
    (py!"README", .file [255])])]

/-- a parser -/
def exParse (s : PyStr) : PyRes Unit := if s = py!"good" then .ok () else .error .other

example : (checkYoungestTreeIsParseable exFiles exParse [py!"trees"] ⟨exTreeFs, []⟩).1 = .ok () := by
  refine (C61_youngest exFiles exParse [py!"trees"] ⟨exTreeFs, []⟩ py!"FV2210.tree" rfl ⟨rfl, rfl⟩ ⟨py!"FV2210", rfl⟩ ?_).1.2
    ⟨py!"good", (), ⟨_, ⟨rfl, rfl⟩, by rw [decodeUtf8_encodeUtf8]; rfl⟩, rfl⟩
  intro name h1 h2
  have hm := (mem_treeNames (env := exFiles) (fs := exTreeFs) (dir := [py!"trees"]) rfl).2 ⟨h1, h2⟩
  have : treeNames exFiles exTreeFs [py!"trees"] = [py!"FV2204.tree", py!"FV2210.tree"] := by decide
  rw [this] at hm
  simp only [List.mem_cons, List.not_mem_nil, or_false] at hm
  rcases hm with rfl | rfl <;> decide
example : checkYoungestTreeIsParseable exFiles exParse [py!"nowhere"] ⟨exTreeFs, []⟩ = (.ok (), ⟨exTreeFs, []⟩) :=
  C61_nothing_to_check _ _ _ _ (.inl rfl)
example : (checkYoungestTreeIsParseable exFiles exParse [py!"trees", py!"README"] ⟨exTreeFs, []⟩).1 = .error .valueError := by
  rw [C61_not_a_directory _ _ _ _ rfl rfl]

end Verif
